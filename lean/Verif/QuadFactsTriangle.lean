import Verif.QuadLemmas

/-
Helper lemmas: moments of the tables of the rules on the triangle.
-/
namespace Verif

theorem triTab1_facts : triFacts (10 ^ 12) 1 1 triTab1 = true := by decide +kernel

theorem triTab2_facts : triFacts (10 ^ 12) 2 3 triTab2 = true := by decide +kernel

theorem triTab3_facts : triFacts (10 ^ 12) 3 4 triTab3 = true := by decide +kernel

theorem triTab4_facts : triFacts (10 ^ 12) 4 6 triTab4 = true := by decide +kernel

theorem triTab5_facts : triFacts (10 ^ 12) 5 7 triTab5 = true := by decide +kernel

theorem triTab6_facts : triFacts (10 ^ 12) 6 12 triTab6 = true := by decide +kernel

theorem triTab7_facts : triFacts (10 ^ 12) 7 12 triTab7 = true := by decide +kernel

theorem triTab8_facts : triFacts (10 ^ 12) 8 16 triTab8 = true := by decide +kernel

theorem triTab9_facts : triFacts (10 ^ 12) 9 19 triTab9 = true := by decide +kernel

theorem triTab10_facts : triFacts (10 ^ 12) 10 25 triTab10 = true := by decide +kernel

theorem triTab11_facts : triFacts (10 ^ 12) 11 30 triTab11 = true := by decide +kernel

theorem triTab12_facts : triFacts (10 ^ 12) 12 33 triTab12 = true := by decide +kernel

theorem triTab13_facts : triFacts (10 ^ 12) 13 37 triTab13 = true := by decide +kernel

theorem triTab14_facts : triFacts (10 ^ 12) 14 42 triTab14 = true := by decide +kernel

theorem triTab15_facts : triFacts (10 ^ 12) 15 49 triTab15 = true := by decide +kernel

theorem triTab16_facts : triFacts (10 ^ 12) 16 55 triTab16 = true := by decide +kernel

theorem triTab17_facts : triFacts (10 ^ 12) 17 63 triTab17 = true := by decide +kernel

theorem triTab19_facts : triFacts (10 ^ 12) 19 73 triTab19 = true := by decide +kernel

theorem triTab21_facts : triFacts (10 ^ 12) 20 85 triTab21 = true := by decide +kernel

theorem triTab21_miss : leaf (10 ^ 7) (kfact 8 * kfact 13) (kfact (8 + 13 + 2)) (8 + 13)
    (scaleBy (tab2 triTab21).pos 8 13 0) (scaleBy (tab2 triTab21).neg 8 13 0) = false := by decide +kernel


end Verif
