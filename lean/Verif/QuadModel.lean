import Verif.Basic
import Verif.MeshModel
import Verif.QuadTabSegment
import Verif.QuadTabTriangle
import Verif.QuadTabSquare
import Verif.QuadTabTetra
import Verif.QuadTabTetraPos
import Verif.QuadTabHexa
import Mathlib.Data.Rat.Defs

/-
The quadrature rules (`GeDiM/src/Quadrature/`). The result is the list of the columns: weight and
point. The two containers of the result have the same number of columns in every case, so the model
keeps them in one list. Constants are the decimal numbers of the source, not their nearest doubles.
-/
namespace Verif

open Res

/-- Column of the result: the weight and the three rows of `Points`; `none` is an entry that was
allocated by `resize` and never written (`GeDiM/src/Quadrature/QuadratureData.hpp:22-26`). -/
abbrev QData := List (ℚ × Option ℚ × Option ℚ × Option ℚ)

/-- Value of a constant of the tables (written as integer, see the files with the tables;
`GeDiM/src/Quadrature/Quadrature_Gauss1D.hpp:36`, for instance). -/
def dec (n : ℤ) : ℚ := n / 10 ^ 23

/-- `setZero(3, n)`, then the first row is written
(`GeDiM/src/Quadrature/Quadrature_Gauss1D.hpp:35-38`, for instance). -/
def zeroed1 (t : List (ℕ × ℕ)) : QData := t.map fun c => (dec c.1, some (dec c.2), some 0, some 0)

/-- `resize(3, n)`, then the first row is written
(`GeDiM/src/Quadrature/Quadrature_GaussLobatto1D.hpp:171-192`, for instance). -/
def raw1 (t : List (ℕ × ℕ)) : QData := t.map fun c => (dec c.1, some (dec c.2), none, none)

/-- `setZero(3, n)`, then the first two rows are written
(`GeDiM/src/Quadrature/Quadrature_Gauss2D_Triangle.cpp:43-53`, for instance). -/
def zeroed2 (t : List (ℕ × ℕ × ℕ)) : QData :=
  t.map fun c => (dec c.1, some (dec c.2.1), some (dec c.2.2), some 0)

/-- `resize(3, n)`, then all rows are written
(`GeDiM/src/Quadrature/Quadrature_Gauss3D_Tetrahedron.cpp:45-62`, for instance). -/
def full3 (t : List (ℤ × ℕ × ℕ × ℕ)) : QData :=
  t.map fun c => (dec c.1, some (dec c.2.1), some (dec c.2.2.1), some (dec c.2.2.2))

/-- Reading a column; the value of an entry that was never written is indeterminate
(`GeDiM/src/Quadrature/QuadratureData.hpp:22-26`). -/
def QData.column : ℚ × Option ℚ × Option ℚ × Option ℚ → Res (ℚ × ℚ × ℚ × ℚ)
  | (w, some x, some y, some z) => ok (w, x, y, z)
  | _ => ub

/-- Reading all of the result (`GeDiM/src/Quadrature/QuadratureData.hpp:22-26`). -/
def QData.read (q : QData) : Res (List (ℚ × ℚ × ℚ × ℚ)) := mapRes QData.column q

/-- `Quadrature_Gauss1D::FillPointsAndWeights` (`GeDiM/src/Quadrature/Quadrature_Gauss1D.hpp:25-406`). -/
def gauss1D : ℕ → Res QData
  | 0 | 1 => ok (zeroed1 gauss1Tab1)
  | 2 | 3 => ok (zeroed1 gauss1Tab3)
  | 4 | 5 => ok (zeroed1 gauss1Tab5)
  | 6 | 7 => ok (zeroed1 gauss1Tab7)
  | 8 | 9 => ok (zeroed1 gauss1Tab9)
  | 10 | 11 => ok (zeroed1 gauss1Tab11)
  | 12 | 13 => ok (zeroed1 gauss1Tab13)
  | 14 | 15 => ok (zeroed1 gauss1Tab15)
  | 16 | 17 => ok (zeroed1 gauss1Tab17)
  | 18 | 19 => ok (zeroed1 gauss1Tab19)
  | 20 | 21 => ok (zeroed1 gauss1Tab21)
  | 22 | 23 => ok (zeroed1 gauss1Tab23)
  | 24 | 25 => ok (zeroed1 gauss1Tab25)
  | 26 | 27 => ok (zeroed1 gauss1Tab27)
  | 28 | 29 => ok (zeroed1 gauss1Tab29)
  | 30 | 31 => ok (zeroed1 gauss1Tab31)
  | _ => throw

/-- `Quadrature_GaussLobatto1D::FillPointsAndWeights` (`GeDiM/src/Quadrature/Quadrature_GaussLobatto1D.hpp:25-706`). -/
def gaussLobatto1D : ℕ → Res QData
  | 0 | 1 => ok (zeroed1 lobatto1Tab1)
  | 2 | 3 => ok (zeroed1 lobatto1Tab3)
  | 4 | 5 => ok (zeroed1 lobatto1Tab5)
  | 6 | 7 => ok (zeroed1 lobatto1Tab7)
  | 8 | 9 => ok (zeroed1 lobatto1Tab9)
  | 10 | 11 => ok (zeroed1 lobatto1Tab11)
  | 12 | 13 => ok (zeroed1 lobatto1Tab13)
  | 14 | 15 => ok (zeroed1 lobatto1Tab15)
  | 16 | 17 => ok (raw1 lobatto1Tab17)
  | 18 | 19 => ok (raw1 lobatto1Tab19)
  | 20 | 21 => ok (raw1 lobatto1Tab21)
  | 22 | 23 => ok (raw1 lobatto1Tab23)
  | 24 | 25 => ok (raw1 lobatto1Tab25)
  | 26 | 27 => ok (raw1 lobatto1Tab27)
  | 28 | 29 => ok (raw1 lobatto1Tab29)
  | 30 | 31 => ok (raw1 lobatto1Tab31)
  | 32 | 33 => ok (raw1 lobatto1Tab33)
  | 34 | 35 => ok (raw1 lobatto1Tab35)
  | 36 | 37 => ok (raw1 lobatto1Tab37)
  | 38 | 39 => ok (raw1 lobatto1Tab39)
  | 40 | 41 => ok (raw1 lobatto1Tab41)
  | 42 | 43 => ok (raw1 lobatto1Tab43)
  | _ => throw

/-- `Quadrature_Gauss2D_Triangle::FillPointsAndWeights` (`GeDiM/src/Quadrature/Quadrature_Gauss2D_Triangle.cpp:18-6517`). -/
def gaussTriangle : ℕ → Res QData
  | 0 | 1 => ok (zeroed2 triTab1)
  | 2 => ok (zeroed2 triTab2)
  | 3 => ok (zeroed2 triTab3)
  | 4 => ok (zeroed2 triTab4)
  | 5 => ok (zeroed2 triTab5)
  | 6 => ok (zeroed2 triTab6)
  | 7 => ok (zeroed2 triTab7)
  | 8 => ok (zeroed2 triTab8)
  | 9 => ok (zeroed2 triTab9)
  | 10 => ok (zeroed2 triTab10)
  | 11 => ok (zeroed2 triTab11)
  | 12 => ok (zeroed2 triTab12)
  | 13 => ok (zeroed2 triTab13)
  | 14 => ok (zeroed2 triTab14)
  | 15 => ok (zeroed2 triTab15)
  | 16 => ok (zeroed2 triTab16)
  | 17 => ok (zeroed2 triTab17)
  | 18 | 19 => ok (zeroed2 triTab19)
  | 20 | 21 => ok (zeroed2 triTab21)
  | 22 | 23 | 24 | 25 => ok (zeroed2 triTab25)
  | 26 | 27 | 28 | 29 | 30 => ok (zeroed2 triTab30)
  | _ => throw

/-- `Quadrature_Gauss2D_Square::FillPointsAndWeights` (`GeDiM/src/Quadrature/Quadrature_Gauss2D_Square.cpp:18-4615`). -/
def gaussSquare : ℕ → Res QData
  | 0 | 1 => ok (zeroed2 squareTab1)
  | 2 | 3 => ok (zeroed2 squareTab3)
  | 4 | 5 => ok (zeroed2 squareTab5)
  | 6 | 7 => ok (zeroed2 squareTab7)
  | 8 | 9 => ok (zeroed2 squareTab9)
  | 10 | 11 => ok (zeroed2 squareTab11)
  | 12 | 13 => ok (zeroed2 squareTab13)
  | 14 | 15 => ok (zeroed2 squareTab15)
  | 16 | 17 => ok (zeroed2 squareTab17)
  | 18 | 19 => ok (zeroed2 squareTab19)
  | 20 | 21 => ok (zeroed2 squareTab21)
  | 22 | 23 => ok (zeroed2 squareTab23)
  | 24 | 25 => ok (zeroed2 squareTab25)
  | 26 | 27 => ok (zeroed2 squareTab27)
  | 28 | 29 => ok (zeroed2 squareTab29)
  | 30 | 31 => ok (zeroed2 squareTab31)
  | _ => throw

/-- `Quadrature_Gauss3D_Tetrahedron::FillPointsAndWeights` (`GeDiM/src/Quadrature/Quadrature_Gauss3D_Tetrahedron.cpp:18-6319`). -/
def gaussTetra : ℕ → Res QData
  | 0 | 1 => ok (full3 tetraTab1)
  | 2 => ok (full3 tetraTab2)
  | 3 => ok (full3 tetraTab3)
  | 4 => ok (full3 tetraTab4)
  | 5 => ok (full3 tetraTab5)
  | 6 => ok (full3 tetraTab6)
  | 7 | 8 => ok (full3 tetraTab8)
  | 9 => ok (full3 tetraTab9)
  | 10 | 11 => ok (full3 tetraTab11)
  | 12 | 13 => ok (full3 tetraTab13)
  | 14 | 15 => ok (full3 tetraTab15)
  | _ => throw

/-- `Quadrature_Gauss3D_Tetrahedron_PositiveWeights::FillPointsAndWeights` (`GeDiM/src/Quadrature/Quadrature_Gauss3D_Tetrahedron_PositiveWeights.cpp:20-1929`). -/
def gaussTetraPos : ℕ → Res QData
  | 0 | 1 => ok (full3 tetraPosTab1)
  | 2 => ok (full3 tetraPosTab2)
  | 3 => ok (full3 tetraPosTab3)
  | 4 => ok (full3 tetraPosTab4)
  | 6 => ok (full3 tetraPosTab6)
  | 8 => ok (full3 tetraPosTab8)
  | 10 => ok (full3 tetraPosTab10)
  | 12 => ok (full3 tetraPosTab12)
  | 14 => ok (full3 tetraPosTab14)
  | _ => throw

/-- `Quadrature_Gauss3D_Hexahedron::FillPointsAndWeights` (`GeDiM/src/Quadrature/Quadrature_Gauss3D_Hexahedron.cpp:18-5263`). -/
def gaussHexa : ℕ → Res QData
  | 0 | 1 => ok (full3 hexaTab1)
  | 2 | 3 => ok (full3 hexaTab3)
  | 4 | 5 => ok (full3 hexaTab5)
  | 6 | 7 => ok (full3 hexaTab7)
  | 8 | 9 => ok (full3 hexaTab9)
  | 10 | 11 => ok (full3 hexaTab11)
  | 12 | 13 => ok (full3 hexaTab13)
  | 14 | 15 => ok (full3 hexaTab15)
  | _ => throw

end Verif
