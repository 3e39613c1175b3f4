import Verif.Props.C77_Repeat
import Verif.Props.C39_C41_Ini
import Verif.Run.IniLineEnds
import Verif.Run.IniTyped
/-
C81: line ends.  Files with CR LF line ends are read like the same files with LF line ends: headers always, n_ini files if no line
begins with a blank (a line of a multi-line string).
-/
set_option autoImplicit false

namespace Stfx.Main
open Stfx.Lexer Stfx.Items Stfx.Parser Stfx.Gen Stfx.Run

/-- C81, headers: a text with CR before every LF has the tokens of the text itself. -/
theorem C81_tokens (w : Str) : toksFile (crlf w) = toksFile w := toks_crlfText .initial true w

/-- The same file, or the same file with the other line ends.  (Specification notion, models no code.) -/
def SameLines (c c' : Option Str) : Prop := c' = c ∨ c' = c.map crlf

/-- C81, runs: line ends of the headers do not matter.  In two file systems in which the configuration is the same, and each header
to be read is the same up to line ends, the runs end the same way and write the same. -/
theorem C81_run (env : Env) (arg : Option Str) (locate : Str → Located) (parse : Option Str → LoadRes) (w1 w2 : World)
    (hc : ∀ p, arg.map locate = some (.canonical p) → extension p = c!".stfx" → w1.read env p = w2.read env p)
    (h : ∀ p ∈ inputPaths env arg locate parse w1, SameLines (w1.read env p) (w2.read env p)) :
    SameEnd (runOn env arg locate parse w1) (runOn env arg locate parse w2) ∧
    SameWrites w1.files w2.files (runOn env arg locate parse w1).world.files (runOn env arg locate parse w2).world.files := by
  refine C77_tokens env arg locate parse w1 w2 hc fun p hp => ?_
  unfold SameTokens
  rcases h p hp with e | e
  · rw [e]
  · rw [e]
    cases w1.read env p with
    | none => rfl
    | some t => exact congrArg some (C81_tokens t).symm

/-- C81, n_ini files.  (Specification notion, models no code.) -/
def AsStatedC81 : Prop :=
  ∀ (fs : List (Str × Header)) (out : OutSpec) (prog : List Item) (T : CTable) (L : IniLib) (n : Str) (text : Str) (t : Val),
    Generated fs .nIni out prog → Compiled (fs.flatMap fun f => f.2.decls) T → TopStruct (fs.flatMap fun f => f.2.decls) n →
    CTable.WT T false (.struct n) t → ShortLines text →
    (iniRead T L prog n IniSt.init (some (crlf text)) t >>= fun r => .ok r.1) = (iniRead T L prog n IniSt.init (some text) t >>= fun r => .ok r.1)

/-- C81 for n_ini files in which no line begins with a blank, and whose lines have at most 77 characters: the same object, the same
return value and the same reader afterwards, whatever the reader has read before.  Missing: lines of multi-line strings, see
`C81_ini_exact`, and longer lines. -/
theorem C81_ini_partial (T : CTable) (L : IniLib) (prog : List Item) (n : Str) (st : IniSt) (text : Str) (t : Val)
    (hs : ShortLines text) (hb : text.head? ≠ some ' ') (hi : ¬ c!"\n " <:+: text) :
    iniRead T L prog n st (some (crlf text)) t = iniRead T L prog n st (some text) t := by
  unfold iniRead
  simp only [load_crlf hs hb hi]

/-- C81, all n_ini files with lines of at most 77 characters: the reader has the same sections and items; the items have the same values,
except for a carriage return before every newline of the lines of multi-line strings. -/
theorem C81_ini_exact (text : Str) (hs : ShortLines text) (k n : Str) :
    itemText (IniSt.init.load (crlf text)).under k n = (itemText (IniSt.init.load text).under k n).map crValue ∧
    (((IniSt.init.load (crlf text)).under.lookup k).isSome = ((IniSt.init.load text).under.lookup k).isSome) := by
  have h := load_cr hs IniSt.init
  rw [show IniSt.init.cr = IniSt.init from rfl] at h
  rw [h]
  have e : (IniSt.init.load text).cr.under.lookup k = ((IniSt.init.load text).under.lookup k).map fun q => q.map fun q => (q.1, crValue q.2) :=
    lookup_map (α := List (Str × Str)) (β := List (Str × Str)) (fun q => q.map fun r : Str × Str => (r.1, crValue r.2)) k (IniSt.init.load text).under
  unfold itemText
  rw [e]
  cases (IniSt.init.load text).under.lookup k with
  | none => exact ⟨rfl, rfl⟩
  | some q => exact ⟨lookup_map crValue n q, rfl⟩

theorem shortLines_of {text : Str} (h : text.length ≤ 77) : ShortLines text := fun _ hu _ => Nat.le_trans hu.length_le h

/-- A file with a multi-line string.  (Example, models no code.) -/
def hostIni : Str := c!"[other db]\nhost\n a\n b\nmax_conn 7\n"

/-- C81 is false for n_ini files: the lines of a multi-line string get carriage returns. -/
theorem C81_ini_refuted : ¬ AsStatedC81 := by
  intro h
  have := h confFiles plainOut _ confData.table someIniLib c!"Conf" hostIni someConf (conf_generated _ _) conf_compiled conf_top someConf_wt
    (shortLines_of (by decide +kernel))
  exact absurd this (by decide +kernel)

/-- What is read from the two files: the string has carriage returns, the number is the same. -/
example :
    (iniRead confData.table someIniLib (progOf confFiles .nIni plainOut) c!"Conf" IniSt.init (some hostIni) someConf >>= fun r => .ok r.1) =
      .ok (true, confVal (dbVal c!"[x] = y" (-3) 5) (dbVal c!"a" 2147483647 0) (dbVal c!"\n a\n b\n" 7 (-9))) ∧
    (iniRead confData.table someIniLib (progOf confFiles .nIni plainOut) c!"Conf" IniSt.init (some (crlf hostIni)) someConf >>= fun r => .ok r.1) =
      .ok (true, confVal (dbVal c!"[x] = y" (-3) 5) (dbVal c!"a" 2147483647 0) (dbVal c!"\n a\r\n b\r\n" 7 (-9))) := by
  decide +kernel

/-- Non-vacuity of `C81_ini_exact`. -/
example : itemText (IniSt.init.load (crlf hostIni)).under c!"other db" c!"host" = some c!"\n a\r\n b\r\n" := by
  rw [(C81_ini_exact hostIni (shortLines_of (by decide +kernel)) _ _).1]
  decide +kernel

/-- Non-vacuity of `C81_ini_partial`: a file with comments, sections, empty lines and items. -/
example (st : IniSt) (t : Val) :
    iniRead confData.table someIniLib (progOf confFiles .nIni plainOut) c!"Conf" st
      (some c!"[other db]\r\n% a comment\r\nhost a b\r\n\r\nmax_conn 7") t =
    iniRead confData.table someIniLib (progOf confFiles .nIni plainOut) c!"Conf" st
      (some c!"[other db]\n% a comment\nhost a b\n\nmax_conn 7") t :=
  C81_ini_partial _ _ _ _ st c!"[other db]\n% a comment\nhost a b\n\nmax_conn 7" t (shortLines_of (by decide)) (by decide) (by decide)

/-- Non-vacuity of `C81_run` and `C77_tokens`: the first header has the other line ends in the second file system, also in
comments and preprocessor lines. -/
example :
    let w1 := orderWorld c!"#include <a>\n/* a\n b */ struct A { B b; };\n// c\nenum B { X };\n" c!"struct C { int c; };"
    let w2 := orderWorld c!"#include <a>\r\n/* a\r\n b */ struct A { B b; };\r\n// c\r\nenum B { X };\r\n" c!"struct C { int c; };"
    (∀ p ∈ inputPaths orderEnv (some c!"x.stfx") (fun _ => .canonical c!"/d/x.stfx") (fun _ => .loaded orderConfig) w1,
      w2.read orderEnv p = w1.read orderEnv p ∨ w2.read orderEnv p = (w1.read orderEnv p).map crlf) ∧
    w1.files c!"/d/a.h" ≠ w2.files c!"/d/a.h" ∧
    (runOn orderEnv (some c!"x.stfx") (fun _ => .canonical c!"/d/x.stfx") (fun _ => .loaded orderConfig) w1).status = some 0 := by
  decide +kernel

end Stfx.Main
