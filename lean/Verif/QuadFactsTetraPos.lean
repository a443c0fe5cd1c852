import Verif.QuadLemmas

/-
Helper lemmas: moments of the tables of the rules with positive weights on the tetrahedron.
-/
namespace Verif

theorem tetraPosTab1_facts : tetFacts (10 ^ 14) 1 1 tetraPosTab1 = true := by decide +kernel

theorem tetraPosTab1_positive : posW tetraPosTab1 = true := by decide +kernel

theorem tetraPosTab2_facts : tetFacts (10 ^ 14) 2 4 tetraPosTab2 = true := by decide +kernel

theorem tetraPosTab2_positive : posW tetraPosTab2 = true := by decide +kernel

theorem tetraPosTab3_facts : tetFacts (10 ^ 14) 3 6 tetraPosTab3 = true := by decide +kernel

theorem tetraPosTab3_positive : posW tetraPosTab3 = true := by decide +kernel

theorem tetraPosTab4_facts : tetFacts (10 ^ 14) 4 11 tetraPosTab4 = true := by decide +kernel

theorem tetraPosTab4_positive : posW tetraPosTab4 = true := by decide +kernel

theorem tetraPosTab6_facts : tetFacts (10 ^ 14) 6 23 tetraPosTab6 = true := by decide +kernel

theorem tetraPosTab6_positive : posW tetraPosTab6 = true := by decide +kernel

theorem tetraPosTab8_facts : tetFacts (10 ^ 14) 8 44 tetraPosTab8 = true := by decide +kernel

theorem tetraPosTab8_positive : posW tetraPosTab8 = true := by decide +kernel

theorem tetraPosTab10_facts : tetFacts (10 ^ 14) 10 74 tetraPosTab10 = true := by decide +kernel

theorem tetraPosTab10_positive : posW tetraPosTab10 = true := by decide +kernel

theorem tetraPosTab12_facts : tetFacts (10 ^ 14) 12 122 tetraPosTab12 = true := by decide +kernel

theorem tetraPosTab12_positive : posW tetraPosTab12 = true := by decide +kernel

theorem tetraPosTab14_facts : tetFacts (10 ^ 14) 14 177 tetraPosTab14 = true := by decide +kernel

theorem tetraPosTab14_positive : posW tetraPosTab14 = true := by decide +kernel


end Verif
