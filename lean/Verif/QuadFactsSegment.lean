import Verif.QuadLemmas

/-
Helper lemmas: moments of the tables of the rules on the segment.
-/
namespace Verif

theorem gauss1Tab1_facts : segFacts (5 * 10 ^ 14) 1 1 gauss1Tab1 = true := by decide +kernel

theorem gauss1Tab3_facts : segFacts (5 * 10 ^ 14) 3 2 gauss1Tab3 = true := by decide +kernel

theorem gauss1Tab5_facts : segFacts (5 * 10 ^ 14) 5 3 gauss1Tab5 = true := by decide +kernel

theorem gauss1Tab7_facts : segFacts (5 * 10 ^ 14) 7 4 gauss1Tab7 = true := by decide +kernel

theorem gauss1Tab9_facts : segFacts (5 * 10 ^ 14) 9 5 gauss1Tab9 = true := by decide +kernel

theorem gauss1Tab11_facts : segFacts (5 * 10 ^ 14) 11 6 gauss1Tab11 = true := by decide +kernel

theorem gauss1Tab13_facts : segFacts (5 * 10 ^ 14) 13 7 gauss1Tab13 = true := by decide +kernel

theorem gauss1Tab15_facts : segFacts (5 * 10 ^ 14) 15 8 gauss1Tab15 = true := by decide +kernel

theorem gauss1Tab17_facts : segFacts (5 * 10 ^ 14) 17 9 gauss1Tab17 = true := by decide +kernel

theorem gauss1Tab19_facts : segFacts (5 * 10 ^ 14) 19 10 gauss1Tab19 = true := by decide +kernel

theorem gauss1Tab21_facts : segFacts (5 * 10 ^ 14) 21 11 gauss1Tab21 = true := by decide +kernel

theorem gauss1Tab23_facts : segFacts (5 * 10 ^ 14) 23 12 gauss1Tab23 = true := by decide +kernel

theorem gauss1Tab25_facts : segFacts (5 * 10 ^ 14) 25 13 gauss1Tab25 = true := by decide +kernel

theorem gauss1Tab27_facts : segFacts (5 * 10 ^ 14) 27 14 gauss1Tab27 = true := by decide +kernel

theorem gauss1Tab29_facts : segFacts (5 * 10 ^ 14) 29 15 gauss1Tab29 = true := by decide +kernel

theorem gauss1Tab31_facts : segFacts (5 * 10 ^ 14) 31 16 gauss1Tab31 = true := by decide +kernel

theorem lobatto1Tab1_facts : segFacts (10 ^ 14) 1 2 lobatto1Tab1 = true := by decide +kernel

theorem lobatto1Tab1_ends : endFacts lobatto1Tab1 = true := by decide +kernel

theorem lobatto1Tab3_facts : segFacts (10 ^ 14) 3 3 lobatto1Tab3 = true := by decide +kernel

theorem lobatto1Tab3_ends : endFacts lobatto1Tab3 = true := by decide +kernel

theorem lobatto1Tab5_facts : segFacts (10 ^ 14) 5 4 lobatto1Tab5 = true := by decide +kernel

theorem lobatto1Tab5_ends : endFacts lobatto1Tab5 = true := by decide +kernel

theorem lobatto1Tab7_facts : segFacts (10 ^ 14) 7 5 lobatto1Tab7 = true := by decide +kernel

theorem lobatto1Tab7_ends : endFacts lobatto1Tab7 = true := by decide +kernel

theorem lobatto1Tab9_facts : segFacts (10 ^ 14) 9 6 lobatto1Tab9 = true := by decide +kernel

theorem lobatto1Tab9_ends : endFacts lobatto1Tab9 = true := by decide +kernel

theorem lobatto1Tab11_facts : segFacts (10 ^ 14) 11 7 lobatto1Tab11 = true := by decide +kernel

theorem lobatto1Tab11_ends : endFacts lobatto1Tab11 = true := by decide +kernel

theorem lobatto1Tab13_facts : segFacts (10 ^ 14) 13 8 lobatto1Tab13 = true := by decide +kernel

theorem lobatto1Tab13_ends : endFacts lobatto1Tab13 = true := by decide +kernel

theorem lobatto1Tab15_facts : segFacts (10 ^ 14) 15 9 lobatto1Tab15 = true := by decide +kernel

theorem lobatto1Tab15_ends : endFacts lobatto1Tab15 = true := by decide +kernel

theorem lobatto1Tab17_facts : segFacts (10 ^ 14) 17 10 lobatto1Tab17 = true := by decide +kernel

theorem lobatto1Tab17_ends : endFacts lobatto1Tab17 = true := by decide +kernel

theorem lobatto1Tab19_facts : segFacts (10 ^ 14) 19 11 lobatto1Tab19 = true := by decide +kernel

theorem lobatto1Tab19_ends : endFacts lobatto1Tab19 = true := by decide +kernel

theorem lobatto1Tab21_facts : segFacts (10 ^ 14) 21 12 lobatto1Tab21 = true := by decide +kernel

theorem lobatto1Tab21_ends : endFacts lobatto1Tab21 = true := by decide +kernel

theorem lobatto1Tab23_facts : segFacts (10 ^ 14) 23 13 lobatto1Tab23 = true := by decide +kernel

theorem lobatto1Tab23_ends : endFacts lobatto1Tab23 = true := by decide +kernel

theorem lobatto1Tab25_facts : segFacts (10 ^ 14) 25 14 lobatto1Tab25 = true := by decide +kernel

theorem lobatto1Tab25_ends : endFacts lobatto1Tab25 = true := by decide +kernel

theorem lobatto1Tab27_facts : segFacts (10 ^ 14) 27 15 lobatto1Tab27 = true := by decide +kernel

theorem lobatto1Tab27_ends : endFacts lobatto1Tab27 = true := by decide +kernel

theorem lobatto1Tab29_facts : segFacts (10 ^ 14) 29 16 lobatto1Tab29 = true := by decide +kernel

theorem lobatto1Tab29_ends : endFacts lobatto1Tab29 = true := by decide +kernel

theorem lobatto1Tab31_facts : segFacts (10 ^ 14) 31 17 lobatto1Tab31 = true := by decide +kernel

theorem lobatto1Tab31_ends : endFacts lobatto1Tab31 = true := by decide +kernel

theorem lobatto1Tab33_facts : segFacts (10 ^ 14) 33 18 lobatto1Tab33 = true := by decide +kernel

theorem lobatto1Tab33_ends : endFacts lobatto1Tab33 = true := by decide +kernel

theorem lobatto1Tab35_facts : segFacts (10 ^ 14) 35 19 lobatto1Tab35 = true := by decide +kernel

theorem lobatto1Tab35_ends : endFacts lobatto1Tab35 = true := by decide +kernel

theorem lobatto1Tab37_facts : segFacts (10 ^ 14) 37 20 lobatto1Tab37 = true := by decide +kernel

theorem lobatto1Tab37_ends : endFacts lobatto1Tab37 = true := by decide +kernel

theorem lobatto1Tab39_facts : segFacts (10 ^ 14) 39 21 lobatto1Tab39 = true := by decide +kernel

theorem lobatto1Tab39_ends : endFacts lobatto1Tab39 = true := by decide +kernel

theorem lobatto1Tab41_facts : segFacts (10 ^ 14) 41 22 lobatto1Tab41 = true := by decide +kernel

theorem lobatto1Tab41_ends : endFacts lobatto1Tab41 = true := by decide +kernel

theorem lobatto1Tab43_facts : segFacts (10 ^ 14) 43 23 lobatto1Tab43 = true := by decide +kernel

theorem lobatto1Tab43_ends : endFacts lobatto1Tab43 = true := by decide +kernel


end Verif
