import Verif.Lexer.Labels
/-
Kernel evaluation of the finite check relating every automaton state to its residual patterns.
-/
namespace Stfx.Lexer

theorem checkAll_ok : realStates.all checkState = true := by decide +kernel

/-- The classes of `yy_ec` refine the character classes of the rules (code points < 256). -/
theorem ecOk_small : ((List.range 256).all fun n => atomList.all fun a =>
    a.memN n == a.memN (rep (if n = 0 then 1 else yyEc.getD n 1))) = true := by decide +kernel

theorem atoms_small : (atomList.all fun a => (a.ranges.all fun r => r.2 < 256) &&
    a.memN (rep 1) == a.neg) = true := by decide +kernel

theorem ec_range : ((List.range 256).all fun n =>
    let k := if n = 0 then 1 else yyEc.getD n 1; 0 < k && k < 43) = true := by decide +kernel

end Stfx.Lexer
