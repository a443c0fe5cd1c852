import Verif.QuadLemmas

/-
Helper lemmas: moments of the tables of the rules on the tetrahedron.
-/
namespace Verif

theorem tetraTab1_facts : tetFacts (10 ^ 13) 1 1 tetraTab1 = true := by decide +kernel

theorem tetraTab2_facts : tetFacts (10 ^ 13) 2 4 tetraTab2 = true := by decide +kernel

theorem tetraTab3_facts : tetFacts (10 ^ 13) 3 5 tetraTab3 = true := by decide +kernel

theorem tetraTab4_facts : tetFacts (10 ^ 13) 4 11 tetraTab4 = true := by decide +kernel

theorem tetraTab5_facts : tetFacts (10 ^ 13) 5 14 tetraTab5 = true := by decide +kernel

theorem tetraTab6_facts : tetFacts (10 ^ 13) 6 24 tetraTab6 = true := by decide +kernel

theorem tetraTab8_facts : tetFacts (10 ^ 13) 8 45 tetraTab8 = true := by decide +kernel

theorem tetraTab9_facts : tetFacts (10 ^ 13) 9 70 tetraTab9 = true := by decide +kernel

theorem tetraTab11_facts : tetFacts (10 ^ 13) 11 126 tetraTab11 = true := by decide +kernel

theorem tetraTab13_facts : tetFacts (10 ^ 13) 13 210 tetraTab13 = true := by decide +kernel

theorem tetraTab15_facts : tetFacts (10 ^ 13) 15 330 tetraTab15 = true := by decide +kernel


end Verif
