import Verif.Cpp.UnitLex
/-
Input headers in a translation unit.
-/
set_option autoImplicit false
namespace Stfx.Cpp
open Stfx.Run Stfx.Items Stfx.Parser

/-! ### Which headers -/

/-- The tokens of a header by itself, as `parseInput` reads them.  C++ [lex.phases]. -/
def headerToks (text : Str) : Option (List Tok) :=
  match pptoks text with
  | some ps => preprocess [] [] ps
  | none => none

/-- The macros a header defines.  C++ [cpp.replace]. -/
def defines (ps : List PTok) : List Str :=
  ps.filterMap fun
    | .dir u => match dirOf u with
      | some (.define n) => some n
      | _ => none
    | _ => none

/-- The file does not depend on the macro `n`.  C++ [cpp.cond], [cpp.replace]. -/
def fresh (n : Str) (ps : List PTok) : Bool :=
  ps.all fun
    | .word w => w ≠ n
    | .tok _ => true
    | .dir u => match dirOf u with
      | some (.ifdef m) | some (.ifndef m) => m ≠ n
      | _ => true

/-- Do the conditional directives match, none of them belonging to a group around?  `d`: the groups that are open.  C++ [cpp.cond]. -/
def nest : Nat → List PTok → Option Nat
  | d, [] => some d
  | d, .word _ :: ts => nest d ts
  | d, .tok _ :: ts => nest d ts
  | d, .dir u :: ts =>
    if (dirName u).1 = c!"include" then nest d ts
    else match dirOf u with
      | none | some .include => none
      | some .pragma | some (.define _) => nest d ts
      | some (.ifdef _) | some (.ifndef _) | some .if0 | some .if1 => nest (d + 1) ts
      | some .else_ => match d with
        | 0 => none
        | d + 1 => nest (d + 1) ts
      | some .endif => match d with
        | 0 => none
        | d + 1 => nest d ts

/-- The header is written so that including it again does nothing: its first directive is `#pragma once`, or all of it is between
`#ifndef G`, `#define G` and `#endif`.  (Specification notion, models no code.) -/
inductive Guarded : List PTok → Prop
  | once (pre : List PTok) (u : Str) (post : List PTok) (h1 : ∀ p ∈ pre, ∀ v, p ≠ .dir v) (h2 : isOnce u = true)
      (h3 : dirOf u = some .pragma) : Guarded (pre ++ .dir u :: post)
  | ifndef (u1 u2 u3 G : Str) (mid : List PTok) (h1 : dirOf u1 = some (.ifndef G)) (h2 : dirOf u2 = some (.define G))
      (h3 : dirOf u3 = some .endif) (h4 : nest 0 mid = some 0) : Guarded (.dir u1 :: .dir u2 :: (mid ++ [.dir u3]))

/-- The file includes library headers and the files `fs` only.  (Specification notion, models no code.) -/
def IncludesOnly (fs : List Str) (ps : List PTok) : Prop :=
  ∀ u, .dir u ∈ ps → (dirName u).1 = c!"include" →
    incOf (dirName u).2 = some .system ∨ ∃ f, f ∈ fs ∧ incOf (dirName u).2 = some (.quoted f)

/-! ### Names of directives -/

theorem takeWhile_beforeComment {u t : Str} (h : beforeComment u = some t) : t.takeWhile isLetter = u.takeWhile isLetter := by
  induction u using beforeComment.induct generalizing t with
  | case1 s => rw [beforeComment.eq_1] at h; cases h; simp [List.takeWhile, show isLetter '/' = false by decide]
  | case2 s => rw [beforeComment.eq_2] at h; cases h
  | case3 c s h1 h2 ih =>
    rw [beforeComment.eq_3 _ _ h1 h2] at h
    cases hs : beforeComment s with
    | none => rw [hs] at h; cases h
    | some t' =>
      rw [hs] at h
      cases h
      simp only [List.takeWhile, ih hs]
  | case4 => cases h; rfl

theorem dirName_beforeComment {u t : Str} (h : beforeComment u = some t) :
    (t.dropWhile isBlank).takeWhile isLetter = (dirName u).1 := by
  unfold dirName
  simp only
  induction u using beforeComment.induct generalizing t with
  | case1 s =>
    rw [beforeComment.eq_1] at h; cases h
    simp [List.takeWhile, List.dropWhile, show isLetter '/' = false by decide, show isBlank '/' = false by decide]
  | case2 s => rw [beforeComment.eq_2] at h; cases h
  | case3 c s h1 h2 ih =>
    have hf := h
    rw [beforeComment.eq_3 _ _ h1 h2] at h
    cases hs : beforeComment s with
    | none => rw [hs] at h; cases h
    | some t' =>
      rw [hs] at h
      cases h
      by_cases hb : isBlank c = true
      · simp only [List.dropWhile, hb, ih hs]
      · rw [Bool.not_eq_true] at hb
        simp only [List.dropWhile, hb]
        exact takeWhile_beforeComment hf
  | case4 => cases h; rfl

theorem dirOf_include {u : Str} {d : Dir} (h : dirOf u = some d) : (dirName u).1 = c!"include" ↔ d = .include := by
  unfold dirOf at h
  cases hb : beforeComment u with
  | none => rw [hb] at h; cases h
  | some t =>
    rw [hb] at h
    simp only [dirName_beforeComment hb] at h
    by_cases hn : (dirName u).1 = c!"include"
    · rw [if_pos hn] at h
      cases h
      simp [hn]
    · rw [if_neg hn] at h
      simp only [hn, false_iff]
      rintro rfl
      (repeat' split at h) <;> cases h

/-! ### Macros -/

/-- A header does the same with more macros if it does not depend on them. -/
theorem preprocess_fresh {M X : List Str} {groups : List Bool} {ps : List PTok} (h : ∀ n ∈ M, fresh n ps = true) :
    preprocess (X ++ M) groups ps = preprocess X groups ps := by
  have hc : ∀ w, (∀ n ∈ M, w ≠ n) → (X ++ M).contains w = X.contains w := by
    intro w hw
    rw [Bool.eq_iff_iff]
    simp only [List.contains_eq_mem, List.mem_append, decide_eq_true_eq]
    exact ⟨fun h => h.resolve_right fun hm => hw w hm rfl, .inl⟩
  induction ps generalizing X groups with
  | nil => rfl
  | cons p ps ih =>
    have hr : ∀ n ∈ M, fresh n ps = true := fun n hn => by
      have := h n hn
      simp only [fresh, List.all_cons, Bool.and_eq_true] at this
      exact this.2
    have ih' : ∀ {X groups}, preprocess (X ++ M) groups ps = preprocess X groups ps := fun {X _} => ih hr (X := X) (fun w hw => by
      rw [Bool.eq_iff_iff]
      simp only [List.contains_eq_mem, List.mem_append, decide_eq_true_eq]
      exact ⟨fun h => h.resolve_right fun hm => hw w hm rfl, .inl⟩)
    have hp : ∀ n ∈ M, fresh n [p] = true := fun n hn => by
      have := h n hn
      simp only [fresh, List.all_cons, Bool.and_eq_true] at this
      simpa [fresh] using this.1
    cases p with
    | word w =>
      have := hc w fun n hn => by simpa [fresh] using hp n hn
      simp only [preprocess, this, ih']
    | tok t => simp only [preprocess, ih']
    | dir u =>
      have hd : ∀ m, dirOf u = some (.ifdef m) ∨ dirOf u = some (.ifndef m) → (X ++ M).contains m = X.contains m := by
        intro m hm
        refine hc m fun n hn => ?_
        have := hp n hn
        rcases hm with hm | hm <;> simpa [fresh, hm] using this
      simp only [preprocess]
      cases hdir : dirOf u with
      | none => rfl
      | some d =>
        cases d <;> simp only [ih', ← List.cons_append]
        case ifdef m => rw [hd m (.inl hdir)]
        case ifndef m => rw [hd m (.inr hdir)]

/-! ### Including a header -/

theorem defines_cons (p : PTok) (ps : List PTok) : defines (p :: ps) = defines [p] ++ defines ps := by
  simp only [defines]
  rw [show p :: ps = [p] ++ ps from rfl, List.filterMap_append]

/-- A header that includes nothing new has the tokens it has by itself. -/
theorem exec_of_preprocess {inc : Str → PState → Option (List Tok × PState)} {self : Str} {M O : List Str} {groups : List Bool}
    {ps : List PTok} {ts : List Tok} (h : preprocess M groups ps = some ts)
    (hi : ∀ u, .dir u ∈ ps → (dirName u).1 = c!"include" → incOf (dirName u).2 = some .system ∨
      ∃ f, incOf (dirName u).2 = some (.quoted f) ∧ ∀ s : PState, O ⊆ s.once → M ⊆ s.macros → inc f s = some ([], s)) :
    ∃ s, execDirs inc self groups ⟨M, O⟩ ps = some (ts, s) ∧ O ⊆ s.once ∧ s.once ⊆ self :: O ∧ M ⊆ s.macros ∧
      s.macros ⊆ M ++ defines ps := by
  induction ps generalizing M O groups ts with
  | nil =>
    simp only [preprocess] at h
    split at h
    · next hg =>
      cases h
      exact ⟨⟨M, O⟩, by simp [execDirs, hg], fun _ h => h, fun _ h => List.mem_cons_of_mem _ h, fun _ h => h, by simp [defines]⟩
    · cases h
  | cons p ps ih =>
    have hi' : ∀ u, .dir u ∈ ps → (dirName u).1 = c!"include" → incOf (dirName u).2 = some .system ∨
        ∃ f, incOf (dirName u).2 = some (.quoted f) ∧ ∀ s : PState, O ⊆ s.once → M ⊆ s.macros → inc f s = some ([], s) :=
      fun u hu => hi u (List.mem_cons_of_mem _ hu)
    have sub : ∀ {M'' : List Str}, M'' ⊆ M ++ defines ps → M'' ⊆ M ++ defines (p :: ps) := by
      intro M'' hM x hx
      rw [defines_cons]
      have := hM hx
      simp only [List.mem_append] at this ⊢
      exact this.elim .inl fun h => .inr (.inr h)
    have easy : ∀ {groups : List Bool} {ts : List Tok}, preprocess M groups ps = some ts → ∃ s,
        execDirs inc self groups ⟨M, O⟩ ps = some (ts, s) ∧ O ⊆ s.once ∧ s.once ⊆ self :: O ∧ M ⊆ s.macros ∧
          s.macros ⊆ M ++ defines (p :: ps) := by
      intro groups ts h
      obtain ⟨s, h1, h2, h2', h3, h4⟩ := ih h hi'
      exact ⟨s, h1, h2, h2', h3, sub h4⟩
    cases p with
    | word w =>
      simp only [preprocess] at h
      simp only [execDirs]
      split at h
      · next hc =>
        rw [if_pos hc]
        cases hp : preprocess M groups ps with
        | none => rw [hp] at h; cases h
        | some ts' =>
          rw [hp] at h
          cases h
          obtain ⟨s, h1, h2⟩ := easy hp
          exact ⟨s, by simp [h1], h2⟩
      · next hc =>
        rw [if_neg hc]
        exact easy h
    | tok t =>
      simp only [preprocess] at h
      simp only [execDirs]
      split at h
      · next hc =>
        rw [if_pos hc]
        cases hp : preprocess M groups ps with
        | none => rw [hp] at h; cases h
        | some ts' =>
          rw [hp] at h
          cases h
          obtain ⟨s, h1, h2⟩ := easy hp
          exact ⟨s, by simp [h1], h2⟩
      · next hc =>
        rw [if_neg hc]
        exact easy h
    | dir u =>
      cases hd : dirOf u with
      | none => simp only [preprocess, hd] at h; cases h
      | some d =>
        by_cases hn : (dirName u).1 = c!"include"
        · have := (dirOf_include hd).1 hn
          subst this
          simp only [preprocess, hd] at h
          simp only [execDirs, hn, if_true]
          split
          · rcases hi u List.mem_cons_self hn with hs | ⟨f, hf, hinc⟩
            · rw [hs]; exact easy h
            · obtain ⟨s, h1, h2⟩ := easy h
              rw [hf]
              simp only [hinc ⟨M, O⟩ (fun _ h => h) (fun _ h => h), h1]
              exact ⟨s, by simp, h2⟩
          · exact easy h
        · have hne : d ≠ .include := fun he => hn ((dirOf_include hd).2 he)
          simp only [preprocess, hd] at h
          simp only [execDirs, hn, if_false, hd]
          cases d with
          | «include» => exact absurd rfl hne
          | pragma =>
            simp only at h ⊢
            split
            · obtain ⟨s, h1, h2, h2', h3, h4⟩ := ih (O := self :: O) h fun v hv hv' => by
                rcases hi' v hv hv' with hs | ⟨f, hf, hinc⟩
                · exact .inl hs
                · exact .inr ⟨f, hf, fun s hO => hinc s fun x hx => hO (List.mem_cons_of_mem _ hx)⟩
              exact ⟨s, h1, fun x hx => h2 (List.mem_cons_of_mem _ hx), (fun x hx => by simpa using h2' hx), h3, sub h4⟩
            · exact easy h
          | ifdef n => exact easy h
          | ifndef n => exact easy h
          | if0 => exact easy h
          | if1 => exact easy h
          | else_ =>
            cases groups with
            | nil => cases h
            | cons g gs => exact easy h
          | endif =>
            cases groups with
            | nil => cases h
            | cons g gs => exact easy h
          | define n =>
            simp only at h ⊢
            split at h
            · next hc =>
              rw [if_pos hc]
              obtain ⟨s, h1, h2, h2', h3, h4⟩ := ih (M := n :: M) h fun v hv hv' => by
                rcases hi' v hv hv' with hs | ⟨f, hf, hinc⟩
                · exact .inl hs
                · exact .inr ⟨f, hf, fun s hO hM => hinc s hO fun x hx => hM (List.mem_cons_of_mem _ hx)⟩
              refine ⟨s, h1, h2, h2', fun x hx => h3 (List.mem_cons_of_mem _ hx), fun x hx => ?_⟩
              have := h4 hx
              rw [defines_cons]
              simp only [defines, List.filterMap_cons, hd, List.filterMap_nil, List.cons_append, List.mem_cons,
                List.mem_append, List.nil_append] at this ⊢
              rcases this with h | h | h
              · exact .inr (.inl h)
              · exact .inl h
              · exact .inr (.inr h)
            · next hc =>
              rw [if_neg hc]
              exact easy h

/-- Tokens before the first directive. -/
theorem preprocess_pre {M : List Str} {pre qs : List PTok} (h : ∀ p ∈ pre, ∀ v, p ≠ .dir v) :
    ∃ ks, (preprocess M [] (pre ++ qs) = (preprocess M [] qs).map (ks ++ ·)) ∧
      ∀ (inc : Str → PState → Option (List Tok × PState)) (self : Str) (O : List Str),
        execDirs inc self [] ⟨M, O⟩ (pre ++ qs) = (execDirs inc self [] ⟨M, O⟩ qs).map fun r => (ks ++ r.1, r.2) := by
  induction pre with
  | nil => exact ⟨[], by simp, by simp⟩
  | cons p pre ih =>
    obtain ⟨ks, h1, h2⟩ := ih fun p hp => h p (List.mem_cons_of_mem _ hp)
    cases p with
    | word w =>
      by_cases hw : M.contains w = true
      · refine ⟨ks, ?_, ?_⟩
        · simp only [List.cons_append, preprocess, hw, h1]; simp
        · intro inc self O; simp only [List.cons_append, execDirs, hw, h2]; simp
      · rw [Bool.not_eq_true] at hw
        refine ⟨wordTok w :: ks, ?_, ?_⟩
        · simp only [List.cons_append, preprocess, hw, h1]; simp [Function.comp_def]
        · intro inc self O; simp only [List.cons_append, execDirs, hw, h2]; simp [Function.comp_def]
    | tok t =>
      refine ⟨t :: ks, ?_, ?_⟩
      · simp only [List.cons_append, preprocess, h1]; simp [Function.comp_def]
      · intro inc self O; simp only [List.cons_append, execDirs, h2]; simp [Function.comp_def]
    | dir u => exact absurd rfl (h _ List.mem_cons_self u)

/-- What is in a group that is skipped gives nothing. -/
theorem exec_group_skip {inc : Str → PState → Option (List Tok × PState)} {self : Str} {s : PState} {gs : List Bool} {d : Nat}
    {mid qs : List PTok} (h : nest gs.length mid = some d) :
    ∃ gs' : List Bool, gs'.length = d ∧
      execDirs inc self (gs ++ [false]) s (mid ++ qs) = execDirs inc self (gs' ++ [false]) s qs := by
  induction mid generalizing gs with
  | nil => cases h; exact ⟨gs, rfl, rfl⟩
  | cons p mid ih =>
    have ha : ∀ gs : List Bool, (gs ++ [false]).all id = false := by simp
    cases p with
    | word w =>
      obtain ⟨gs', h1, h2⟩ := ih h
      exact ⟨gs', h1, by simp only [List.cons_append, execDirs, ha, h2]; simp⟩
    | tok t =>
      obtain ⟨gs', h1, h2⟩ := ih h
      exact ⟨gs', h1, by simp only [List.cons_append, execDirs, ha, h2]; simp⟩
    | dir u =>
      simp only [nest] at h
      by_cases hn : (dirName u).1 = c!"include"
      · rw [if_pos hn] at h
        obtain ⟨gs', h1, h2⟩ := ih h
        exact ⟨gs', h1, by simp only [List.cons_append, execDirs, ha, h2, hn, if_true]; simp⟩
      · rw [if_neg hn] at h
        simp only [List.cons_append, execDirs, hn, if_false, ha, Bool.false_and, Bool.false_eq_true]
        cases hd : dirOf u with
        | none => rw [hd] at h; cases h
        | some d =>
          rw [hd] at h
          cases d with
          | «include» => cases h
          | pragma => exact ih h
          | define n => exact ih h
          | ifdef n => exact ih (gs := s.macros.contains n :: gs) h
          | ifndef n => exact ih (gs := (!s.macros.contains n) :: gs) h
          | if0 => exact ih (gs := false :: gs) h
          | if1 => exact ih (gs := true :: gs) h
          | else_ =>
            cases gs with
            | nil => cases h
            | cons g gs => exact ih (gs := (!g) :: gs) h
          | endif =>
            cases gs with
            | nil => cases h
            | cons g gs => exact ih (gs := gs) h

/-- Including the file `f` does nothing, now and later.  (Proof notion, models no code.) -/
def Done (find : Str → Option Str) (f : Str) (s : PState) : Prop :=
  ∀ (n : Nat) (s' : PState), s.once ⊆ s'.once → s.macros ⊆ s'.macros → incl find (n + 1) f s' = some ([], s')

theorem Done.mono {find : Str → Option Str} {f : Str} {s s' : PState} (h : Done find f s) (h1 : s.once ⊆ s'.once)
    (h2 : s.macros ⊆ s'.macros) : Done find f s' :=
  fun n s'' h3 h4 => h n s'' (fun _ hx => h3 (h1 hx)) (fun _ hx => h4 (h2 hx))

theorem done_once {find : Str → Option Str} {f : Str} {s : PState} (h : f ∈ s.once) : Done find f s := by
  intro n s' h1 _
  simp [incl, h1 h]

/-- The first inclusion of a guarded header gives the tokens it has by itself; then it is done with. -/
theorem incl_guarded {find : Str → Option Str} {n : Nat} {f text : Str} {ps : List PTok} {ts : List Tok} {fs : List Str} {s : PState}
    (hf : find f = some text) (hp : pptoks text = some ps) (ht : preprocess [] [] ps = some ts) (hg : Guarded ps)
    (hi : IncludesOnly fs ps) (hd : ∀ g ∈ fs, Done find g s) (hm : ∀ m ∈ s.macros, fresh m ps = true) (ho : f ∉ s.once) :
    ∃ s', incl find (n + 2) f s = some (ts, s') ∧ Done find f s' ∧ s.once ⊆ s'.once ∧ s'.once ⊆ f :: s.once ∧ s.macros ⊆ s'.macros ∧
      s'.macros ⊆ s.macros ++ defines ps := by
  have ht' : preprocess s.macros [] ps = some ts := by
    rw [← ht]; exact preprocess_fresh (X := []) hm
  have hu : incl find (n + 2) f s = execDirs (incl find (n + 1)) f [] s ps := by
    rw [incl.eq_def]
    simp only [List.contains_eq_mem, ho, decide_false, Bool.false_eq_true, if_false, hf, hp]
  have hi' : ∀ qs : List PTok, qs ⊆ ps → ∀ M O : List Str, s.macros ⊆ M → s.once ⊆ O →
      ∀ u, .dir u ∈ qs → (dirName u).1 = c!"include" → incOf (dirName u).2 = some .system ∨
      ∃ f, incOf (dirName u).2 = some (.quoted f) ∧ ∀ s : PState, O ⊆ s.once → M ⊆ s.macros →
        incl find (n + 1) f s = some ([], s) := by
    intro qs hq M O hM hO u hu hn
    rcases hi u (hq hu) hn with h | ⟨g, hg, h⟩
    · exact .inl h
    · exact .inr ⟨g, h, fun s' h1 h2 => hd g hg n s' (fun _ hx => h1 (hO hx)) (fun _ hx => h2 (hM hx))⟩
  rw [hu]
  cases hg with
  | once pre u post h1 h2 h3 =>
    obtain ⟨ks, e1, e2⟩ := preprocess_pre (M := s.macros) (qs := .dir u :: post) h1
    rw [e1] at ht'
    have e3 : preprocess s.macros [] (.dir u :: post) = preprocess s.macros [] post := by simp only [preprocess, h3]
    rw [e3] at ht'
    cases hpost : preprocess s.macros [] post with
    | none => rw [hpost] at ht'; cases ht'
    | some tp =>
      rw [hpost] at ht'
      cases ht'
      have hn : (dirName u).1 ≠ c!"include" := fun h => by
        have := (dirOf_include h3).1 h
        cases this
      obtain ⟨s', a1, a2, a2', a3, a4⟩ := exec_of_preprocess (inc := incl find (n + 1)) (self := f) (O := f :: s.once) hpost
        (hi' post (fun x hx => by simp [hx]) s.macros (f :: s.once) (fun _ h => h) fun x hx => List.mem_cons_of_mem _ hx)
      refine ⟨s', ?_, done_once (a2 List.mem_cons_self), fun x hx => a2 (List.mem_cons_of_mem _ hx),
        (fun x hx => by simpa using a2' hx), a3, fun x hx => ?_⟩
      · rw [e2 (incl find (n + 1)) f s.once]
        have : execDirs (incl find (n + 1)) f [] ⟨s.macros, s.once⟩ (.dir u :: post) =
            execDirs (incl find (n + 1)) f [] ⟨s.macros, f :: s.once⟩ post := by
          simp only [execDirs, hn, if_false, h3, h2]
          rfl
        rw [this, a1]
        rfl
      · have := a4 hx
        simp only [defines, List.filterMap_append, List.filterMap_cons, h3, List.mem_append] at this ⊢
        exact this.elim .inl fun h => .inr (.inr h)
  | ifndef u1 u2 u3 G mid h1 h2 h3 h4 =>
    have hG : G ∉ s.macros := by
      intro hG
      have := hm G hG
      simp [fresh, h1] at this
    have hn : ∀ {u : Str} {d : Dir}, dirOf u = some d → d ≠ .include → (dirName u).1 ≠ c!"include" :=
      fun hd hne h => hne ((dirOf_include hd).1 h)
    have n1 := hn h1 (by simp)
    have n2 := hn h2 (by simp)
    have n3 := hn h3 (by simp)
    have hc : s.macros.contains G = false := by simp [hG]
    have e3 : preprocess s.macros [] (.dir u1 :: .dir u2 :: (mid ++ [.dir u3])) =
        preprocess (G :: s.macros) [true] (mid ++ [.dir u3]) := by
      simp only [preprocess, h1, h2, hc]
      rfl
    rw [e3] at ht'
    obtain ⟨s', a1, a2, a2', a3, a4⟩ := exec_of_preprocess (inc := incl find (n + 1)) (self := f) (O := s.once) ht'
      (hi' _ (fun x hx => List.mem_cons_of_mem _ (List.mem_cons_of_mem _ hx)) (G :: s.macros) s.once
        (fun x hx => List.mem_cons_of_mem _ hx) fun _ h => h)
    refine ⟨s', ?_, ?_, a2, a2', fun x hx => a3 (List.mem_cons_of_mem _ hx), fun x hx => ?_⟩
    · rw [← a1]
      simp only [execDirs, n1, n2, if_false, h1, h2, hc]
      rfl
    · intro m s'' _ b2
      rw [incl.eq_def]
      simp only
      by_cases ho : s''.once.contains f = true
      · rw [if_pos ho]
      · rw [if_neg ho]
        simp only [hf, hp]
        have hc : s''.macros.contains G = true := by simp [b2 (a3 List.mem_cons_self)]
        obtain ⟨gs, b3, b4⟩ := exec_group_skip (inc := incl find m) (self := f) (s := s'') (gs := []) (qs := [.dir u3]) h4
        have : gs = [] := List.length_eq_zero_iff.1 b3
        subst this
        simp only [execDirs, n1, n2, if_false, h1, h2, hc, Bool.not_true, List.all_cons, id, Bool.false_and, Bool.false_eq_true]
        rw [List.nil_append] at b4
        rw [b4]
        simp [execDirs, n3, h3]
    · have := a4 hx
      simp only [defines, List.filterMap_cons, h1, h2, List.mem_append, List.mem_cons] at this ⊢
      rcases this with (h | h) | h
      · exact .inr (.inl h)
      · exact .inl h
      · exact .inr (.inr h)

/-! ### A list of headers -/

/-- Include files one after the other.  C++ [cpp.include]. -/
def inclAll (inc : Str → PState → Option (List Tok × PState)) : List Str → PState → Option (List Tok × PState)
  | [], s => some ([], s)
  | f :: fs, s => match inc f s with
    | some (a, s') => (inclAll inc fs s').map fun r => (a ++ r.1, r.2)
    | none => none

/-- The headers (names and texts) can be included in this order: each of them is C++, is guarded, includes only library headers and
headers before it, and does not depend on the macros of those before it.  (Specification notion, models no code.) -/
structure GoodInputs (inputs : List (Str × Str)) : Prop where
  nodup : (inputs.map Prod.fst).Nodup
  header : ∀ l f text r, inputs = l ++ (f, text) :: r → ∃ ps ts, pptoks text = some ps ∧ preprocess [] [] ps = some ts ∧
    Guarded ps ∧ IncludesOnly (l.map Prod.fst) ps
  macros : inputs.Pairwise fun a b => ∀ ps qs, pptoks a.2 = some ps → pptoks b.2 = some qs → ∀ m ∈ defines ps, fresh m qs = true

/-- The tokens of headers, each by itself.  C++ [lex.phases]. -/
def inputToks (inputs : List (Str × Str)) : List Tok := inputs.flatMap fun p => (headerToks p.2).getD []

/-- The macros of headers.  C++ [cpp.replace]. -/
def inputMacros (inputs : List (Str × Str)) : List Str := inputs.flatMap fun p => defines ((pptoks p.2).getD [])

theorem inclAll_inputs {find : Str → Option Str} {n : Nat} {inputs : List (Str × Str)} {s : PState} (hg : GoodInputs inputs)
    (hf : ∀ p ∈ inputs, find p.1 = some p.2) (ho : ∀ p ∈ inputs, p.1 ∉ s.once) (hm : s.macros = []) :
    ∃ s', inclAll (incl find (n + 2)) (inputs.map Prod.fst) s = some (inputToks inputs, s') ∧
      (∀ p ∈ inputs, Done find p.1 s') ∧ s.once ⊆ s'.once ∧ s'.once ⊆ inputs.map Prod.fst ++ s.once ∧
      s'.macros ⊆ inputMacros inputs := by
  suffices H : ∀ (l r : List (Str × Str)) (s1 : PState), inputs = l ++ r → (∀ p ∈ l, Done find p.1 s1) →
      s.once ⊆ s1.once → s1.once ⊆ l.map Prod.fst ++ s.once → s1.macros ⊆ inputMacros l →
      ∃ s', inclAll (incl find (n + 2)) (r.map Prod.fst) s1 = some (inputToks r, s') ∧
      (∀ p ∈ inputs, Done find p.1 s') ∧ s.once ⊆ s'.once ∧ s'.once ⊆ inputs.map Prod.fst ++ s.once ∧
      s'.macros ⊆ inputMacros inputs by
    exact H [] inputs s rfl (by simp) (fun _ h => h) (fun x hx => by simpa using hx) (by simp [hm])
  intro l r
  induction r generalizing l with
  | nil =>
    intro s1 he hd h1 h2 h3
    rw [List.append_nil] at he
    subst he
    exact ⟨s1, rfl, hd, h1, h2, h3⟩
  | cons p r ih =>
    intro s1 he hd h1 h2 h3
    obtain ⟨f, text⟩ := p
    obtain ⟨ps, ts, a1, a2, a3, a4⟩ := hg.header l f text r he
    have hmem : (f, text) ∈ inputs := by rw [he]; simp
    have hnd := hg.nodup
    have hmac := hg.macros
    rw [he] at hnd hmac
    have hfl : f ∉ l.map Prod.fst := by
      simp only [List.map_append, List.map_cons] at hnd
      intro hin
      exact (List.nodup_append.1 hnd).2.2 f hin f List.mem_cons_self rfl
    have hfresh : ∀ m ∈ s1.macros, fresh m ps = true := by
      intro m hm
      have := h3 hm
      simp only [inputMacros, List.mem_flatMap] at this
      obtain ⟨q, hq, hm⟩ := this
      cases hqp : pptoks q.2 with
      | none => rw [hqp] at hm; simp [defines] at hm
      | some qs =>
        rw [hqp] at hm
        exact (List.pairwise_append.1 hmac).2.2 q hq (f, text) List.mem_cons_self qs ps hqp a1 m hm
    have hfo : f ∉ s1.once := by
      intro hin
      rcases List.mem_append.1 (h2 hin) with h | h
      · exact hfl h
      · exact ho _ hmem h
    obtain ⟨s2, b1, b2, b3, b4, b5, b6⟩ := incl_guarded (n := n) (hf _ hmem) a1 a2 a3 a4
      (fun g hgm => by
        obtain ⟨q, hq, rfl⟩ := List.mem_map.1 hgm
        exact hd q hq) hfresh hfo
    obtain ⟨s', c1, c2⟩ := ih (l ++ [(f, text)]) s2 (by rw [he]; simp)
      (fun q hq => by
        rcases List.mem_append.1 hq with h | h
        · exact (hd q h).mono b3 b5
        · simp only [List.mem_cons, List.not_mem_nil, or_false] at h
          subst h
          exact b2)
      (fun x hx => b3 (h1 hx))
      (fun x hx => by
        rcases List.mem_cons.1 (b4 hx) with rfl | h
        · simp
        · have := h2 h
          simp only [List.mem_append, List.map_append] at this ⊢
          exact this.elim (fun h => .inl (.inl h)) .inr)
      (fun x hx => by
        have := b6 hx
        simp only [inputMacros, List.flatMap_append, List.mem_append] at this ⊢
        rcases this with h | h
        · exact .inl (h3 h)
        · right
          simp [a1, h])
    refine ⟨s', ?_, c2⟩
    simp only [List.map_cons, inclAll, b1, c1, Option.map_some]
    simp [inputToks, headerToks, a1, a2]

/-- The second time, headers give nothing. -/
theorem inclAll_done {find : Str → Option Str} {n : Nat} {fs : List Str} {s : PState} (h : ∀ f ∈ fs, Done find f s) :
    inclAll (incl find (n + 1)) fs s = some ([], s) := by
  induction fs with
  | nil => rfl
  | cons f fs ih =>
    simp only [inclAll, h f List.mem_cons_self n s (fun _ h => h) (fun _ h => h),
      ih fun g hg => h g (List.mem_cons_of_mem _ hg)]
    rfl

end Stfx.Cpp
