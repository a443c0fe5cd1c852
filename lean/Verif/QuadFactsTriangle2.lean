import Verif.QuadLemmas

/-
Helper lemmas: moments of the large tables of the rules on the triangle.
-/
namespace Verif

theorem triTab25_facts : triFacts (10 ^ 12) 25 126 triTab25 = true := by decide +kernel

theorem triTab30_facts : triFacts (10 ^ 12) 30 175 triTab30 = true := by decide +kernel


end Verif
