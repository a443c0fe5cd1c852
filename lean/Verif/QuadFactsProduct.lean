import Verif.QuadLemmas

/-
Helper lemmas: the tables of the rules on the square and the hexahedron are products.
-/
namespace Verif

theorem squareTab1_facts : squareFacts 1 gauss1Tab1 squareTab1 = true := by decide +kernel

theorem squareTab3_facts : squareFacts 4 gauss1Tab3 squareTab3 = true := by decide +kernel

theorem squareTab5_facts : squareFacts 9 gauss1Tab5 squareTab5 = true := by decide +kernel

theorem squareTab7_facts : squareFacts 16 gauss1Tab7 squareTab7 = true := by decide +kernel

theorem squareTab9_facts : squareFacts 25 gauss1Tab9 squareTab9 = true := by decide +kernel

theorem squareTab11_facts : squareFacts 36 gauss1Tab11 squareTab11 = true := by decide +kernel

theorem squareTab13_facts : squareFacts 49 gauss1Tab13 squareTab13 = true := by decide +kernel

theorem squareTab15_facts : squareFacts 64 gauss1Tab15 squareTab15 = true := by decide +kernel

theorem squareTab17_facts : squareFacts 81 gauss1Tab17 squareTab17 = true := by decide +kernel

theorem squareTab19_facts : squareFacts 100 gauss1Tab19 squareTab19 = true := by decide +kernel

theorem squareTab21_facts : squareFacts 121 gauss1Tab21 squareTab21 = true := by decide +kernel

theorem squareTab23_facts : squareFacts 144 gauss1Tab23 squareTab23 = true := by decide +kernel

theorem squareTab25_facts : squareFacts 169 gauss1Tab25 squareTab25 = true := by decide +kernel

theorem squareTab27_facts : squareFacts 196 gauss1Tab27 squareTab27 = true := by decide +kernel

theorem squareTab29_facts : squareFacts 225 gauss1Tab29 squareTab29 = true := by decide +kernel

theorem squareTab31_facts : squareFacts 256 gauss1Tab31 squareTab31 = true := by decide +kernel

theorem hexaTab1_facts : cubeFacts 1 gauss1Tab1 hexaTab1 = true := by decide +kernel

theorem hexaTab3_facts : cubeFacts 8 gauss1Tab3 hexaTab3 = true := by decide +kernel

theorem hexaTab5_facts : cubeFacts 27 gauss1Tab5 hexaTab5 = true := by decide +kernel

theorem hexaTab7_facts : cubeFacts 64 gauss1Tab7 hexaTab7 = true := by decide +kernel

theorem hexaTab9_facts : cubeFacts 125 gauss1Tab9 hexaTab9 = true := by decide +kernel

theorem hexaTab11_facts : cubeFacts 216 gauss1Tab11 hexaTab11 = true := by decide +kernel

theorem hexaTab13_facts : cubeFacts 343 gauss1Tab13 hexaTab13 = true := by decide +kernel

theorem hexaTab15_facts : cubeFacts 512 gauss1Tab15 hexaTab15 = true := by decide +kernel


end Verif
