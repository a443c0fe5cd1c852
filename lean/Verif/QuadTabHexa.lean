import Mathlib.Data.Nat.Notation
import Mathlib.Data.Int.Notation

/-
Tables of the quadrature rules: Gauss rule on the hexahedron.

A decimal constant c of the source is stored as the integer c * 10^23; a row is (weight, x, y, z). The
rounding of the constants to doubles is left out.
-/
namespace Verif

/-- Gauss rule on the hexahedron, number of points: 1 (`GeDiM/src/Quadrature/Quadrature_Gauss3D_Hexahedron.cpp:26-33`). -/
def hexaTab1 : List (ℤ × ℕ × ℕ × ℕ) :=
  [(100000000000000000000000, 50000000000000000000000, 50000000000000000000000, 50000000000000000000000)]

/-- Gauss rule on the hexahedron, number of points: 8 (`GeDiM/src/Quadrature/Quadrature_Gauss3D_Hexahedron.cpp:36-71`). -/
def hexaTab3 : List (ℤ × ℕ × ℕ × ℕ) :=
  [(12500000000000000000000, 21132486540518713000000, 21132486540518713000000, 21132486540518713000000),
   (12500000000000000000000, 21132486540518713000000, 21132486540518713000000, 78867513459481287000000),
   (12500000000000000000000, 78867513459481287000000, 21132486540518713000000, 21132486540518713000000),
   (12500000000000000000000, 78867513459481287000000, 21132486540518713000000, 78867513459481287000000),
   (12500000000000000000000, 21132486540518713000000, 78867513459481287000000, 21132486540518713000000),
   (12500000000000000000000, 21132486540518713000000, 78867513459481287000000, 78867513459481287000000),
   (12500000000000000000000, 78867513459481287000000, 78867513459481287000000, 21132486540518713000000),
   (12500000000000000000000, 78867513459481287000000, 78867513459481287000000, 78867513459481287000000)]

/-- Gauss rule on the hexahedron, number of points: 27 (`GeDiM/src/Quadrature/Quadrature_Gauss3D_Hexahedron.cpp:74-185`). -/
def hexaTab5 : List (ℤ × ℕ × ℕ × ℕ) :=
  [(2143347050754458600000, 11270166537925830000000, 11270166537925830000000, 11270166537925830000000),
   (3429355281207133200000, 11270166537925830000000, 11270166537925830000000, 50000000000000000000000),
   (2143347050754458600000, 11270166537925830000000, 11270166537925830000000, 88729833462074170000000),
   (3429355281207133200000, 50000000000000000000000, 11270166537925830000000, 11270166537925830000000),
   (5486968449931412000000, 50000000000000000000000, 11270166537925830000000, 50000000000000000000000),
   (3429355281207133200000, 50000000000000000000000, 11270166537925830000000, 88729833462074170000000),
   (2143347050754458600000, 88729833462074170000000, 11270166537925830000000, 11270166537925830000000),
   (3429355281207133200000, 88729833462074170000000, 11270166537925830000000, 50000000000000000000000),
   (2143347050754458600000, 88729833462074170000000, 11270166537925830000000, 88729833462074170000000),
   (3429355281207133200000, 11270166537925830000000, 50000000000000000000000, 11270166537925830000000),
   (5486968449931412000000, 11270166537925830000000, 50000000000000000000000, 50000000000000000000000),
   (3429355281207133200000, 11270166537925830000000, 50000000000000000000000, 88729833462074170000000),
   (5486968449931412700000, 50000000000000000000000, 50000000000000000000000, 11270166537925830000000),
   (8779149519890260000000, 50000000000000000000000, 50000000000000000000000, 50000000000000000000000),
   (5486968449931412700000, 50000000000000000000000, 50000000000000000000000, 88729833462074170000000),
   (3429355281207133200000, 88729833462074170000000, 50000000000000000000000, 11270166537925830000000),
   (5486968449931412000000, 88729833462074170000000, 50000000000000000000000, 50000000000000000000000),
   (3429355281207133200000, 88729833462074170000000, 50000000000000000000000, 88729833462074170000000),
   (2143347050754458600000, 11270166537925830000000, 88729833462074170000000, 11270166537925830000000),
   (3429355281207133200000, 11270166537925830000000, 88729833462074170000000, 50000000000000000000000),
   (2143347050754458600000, 11270166537925830000000, 88729833462074170000000, 88729833462074170000000),
   (3429355281207133200000, 50000000000000000000000, 88729833462074170000000, 11270166537925830000000),
   (5486968449931412000000, 50000000000000000000000, 88729833462074170000000, 50000000000000000000000),
   (3429355281207133200000, 50000000000000000000000, 88729833462074170000000, 88729833462074170000000),
   (2143347050754458600000, 88729833462074170000000, 88729833462074170000000, 11270166537925830000000),
   (3429355281207133200000, 88729833462074170000000, 88729833462074170000000, 50000000000000000000000),
   (2143347050754458600000, 88729833462074170000000, 88729833462074170000000, 88729833462074170000000)]

/-- Gauss rule on the hexahedron, number of points: 64 (`GeDiM/src/Quadrature/Quadrature_Gauss3D_Hexahedron.cpp:188-447`). -/
def hexaTab7 : List (ℤ × ℕ × ℕ × ℕ) :=
  [(526143468631643140000, 6943184420297371400000, 6943184420297371400000, 6943184420297371400000),
   (986393947438381730000, 6943184420297371400000, 6943184420297371400000, 33000947820757187000000),
   (986393947438381730000, 6943184420297371400000, 6943184420297371400000, 66999052179242813000000),
   (526143468631643140000, 6943184420297371400000, 6943184420297371400000, 93056815579702623000000),
   (986393947438381730000, 33000947820757187000000, 6943184420297371400000, 6943184420297371400000),
   (1849254200709766000000, 33000947820757187000000, 6943184420297371400000, 33000947820757187000000),
   (1849254200709766000000, 33000947820757187000000, 6943184420297371400000, 66999052179242813000000),
   (986393947438381730000, 33000947820757187000000, 6943184420297371400000, 93056815579702623000000),
   (986393947438381730000, 66999052179242813000000, 6943184420297371400000, 6943184420297371400000),
   (1849254200709766000000, 66999052179242813000000, 6943184420297371400000, 33000947820757187000000),
   (1849254200709766000000, 66999052179242813000000, 6943184420297371400000, 66999052179242813000000),
   (986393947438381730000, 66999052179242813000000, 6943184420297371400000, 93056815579702623000000),
   (526143468631643140000, 93056815579702623000000, 6943184420297371400000, 6943184420297371400000),
   (986393947438381730000, 93056815579702623000000, 6943184420297371400000, 33000947820757187000000),
   (986393947438381730000, 93056815579702623000000, 6943184420297371400000, 66999052179242813000000),
   (526143468631643140000, 93056815579702623000000, 6943184420297371400000, 93056815579702623000000),
   (986393947438381730000, 6943184420297371400000, 33000947820757187000000, 6943184420297371400000),
   (1849254200709766000000, 6943184420297371400000, 33000947820757187000000, 33000947820757187000000),
   (1849254200709766000000, 6943184420297371400000, 33000947820757187000000, 66999052179242813000000),
   (986393947438381730000, 6943184420297371400000, 33000947820757187000000, 93056815579702623000000),
   (1849254200709766000000, 33000947820757187000000, 33000947820757187000000, 6943184420297371400000),
   (3466912086923911600000, 33000947820757187000000, 33000947820757187000000, 33000947820757187000000),
   (3466912086923911600000, 33000947820757187000000, 33000947820757187000000, 66999052179242813000000),
   (1849254200709766000000, 33000947820757187000000, 33000947820757187000000, 93056815579702623000000),
   (1849254200709766000000, 66999052179242813000000, 33000947820757187000000, 6943184420297371400000),
   (3466912086923911600000, 66999052179242813000000, 33000947820757187000000, 33000947820757187000000),
   (3466912086923911600000, 66999052179242813000000, 33000947820757187000000, 66999052179242813000000),
   (1849254200709766000000, 66999052179242813000000, 33000947820757187000000, 93056815579702623000000),
   (986393947438381730000, 93056815579702623000000, 33000947820757187000000, 6943184420297371400000),
   (1849254200709766000000, 93056815579702623000000, 33000947820757187000000, 33000947820757187000000),
   (1849254200709766000000, 93056815579702623000000, 33000947820757187000000, 66999052179242813000000),
   (986393947438381730000, 93056815579702623000000, 33000947820757187000000, 93056815579702623000000),
   (986393947438381730000, 6943184420297371400000, 66999052179242813000000, 6943184420297371400000),
   (1849254200709766000000, 6943184420297371400000, 66999052179242813000000, 33000947820757187000000),
   (1849254200709766000000, 6943184420297371400000, 66999052179242813000000, 66999052179242813000000),
   (986393947438381730000, 6943184420297371400000, 66999052179242813000000, 93056815579702623000000),
   (1849254200709766000000, 33000947820757187000000, 66999052179242813000000, 6943184420297371400000),
   (3466912086923911600000, 33000947820757187000000, 66999052179242813000000, 33000947820757187000000),
   (3466912086923911600000, 33000947820757187000000, 66999052179242813000000, 66999052179242813000000),
   (1849254200709766000000, 33000947820757187000000, 66999052179242813000000, 93056815579702623000000),
   (1849254200709766000000, 66999052179242813000000, 66999052179242813000000, 6943184420297371400000),
   (3466912086923911600000, 66999052179242813000000, 66999052179242813000000, 33000947820757187000000),
   (3466912086923911600000, 66999052179242813000000, 66999052179242813000000, 66999052179242813000000),
   (1849254200709766000000, 66999052179242813000000, 66999052179242813000000, 93056815579702623000000),
   (986393947438381730000, 93056815579702623000000, 66999052179242813000000, 6943184420297371400000),
   (1849254200709766000000, 93056815579702623000000, 66999052179242813000000, 33000947820757187000000),
   (1849254200709766000000, 93056815579702623000000, 66999052179242813000000, 66999052179242813000000),
   (986393947438381730000, 93056815579702623000000, 66999052179242813000000, 93056815579702623000000),
   (526143468631643140000, 6943184420297371400000, 93056815579702623000000, 6943184420297371400000),
   (986393947438381730000, 6943184420297371400000, 93056815579702623000000, 33000947820757187000000),
   (986393947438381730000, 6943184420297371400000, 93056815579702623000000, 66999052179242813000000),
   (526143468631643140000, 6943184420297371400000, 93056815579702623000000, 93056815579702623000000),
   (986393947438381730000, 33000947820757187000000, 93056815579702623000000, 6943184420297371400000),
   (1849254200709766000000, 33000947820757187000000, 93056815579702623000000, 33000947820757187000000),
   (1849254200709766000000, 33000947820757187000000, 93056815579702623000000, 66999052179242813000000),
   (986393947438381730000, 33000947820757187000000, 93056815579702623000000, 93056815579702623000000),
   (986393947438381730000, 66999052179242813000000, 93056815579702623000000, 6943184420297371400000),
   (1849254200709766000000, 66999052179242813000000, 93056815579702623000000, 33000947820757187000000),
   (1849254200709766000000, 66999052179242813000000, 93056815579702623000000, 66999052179242813000000),
   (986393947438381730000, 66999052179242813000000, 93056815579702623000000, 93056815579702623000000),
   (526143468631643140000, 93056815579702623000000, 93056815579702623000000, 6943184420297371400000),
   (986393947438381730000, 93056815579702623000000, 93056815579702623000000, 33000947820757187000000),
   (986393947438381730000, 93056815579702623000000, 93056815579702623000000, 66999052179242813000000),
   (526143468631643140000, 93056815579702623000000, 93056815579702623000000, 93056815579702623000000)]

/-- Gauss rule on the hexahedron, number of points: 125 (`GeDiM/src/Quadrature/Quadrature_Gauss3D_Hexahedron.cpp:450-953`). -/
def hexaTab9 : List (ℤ × ℕ × ℕ × ℕ) :=
  [(166246705257908100000, 4691007703066801800000, 4691007703066801800000, 4691007703066801800000),
   (335843859567148050000, 4691007703066801800000, 4691007703066801800000, 23076534494715845000000),
   (399177591910603640000, 4691007703066801800000, 4691007703066801800000, 50000000000000000000000),
   (335843859567148050000, 4691007703066801800000, 4691007703066801800000, 76923465505284150000000),
   (166246705257908100000, 4691007703066801800000, 4691007703066801800000, 95308992296933193000000),
   (335843859567148050000, 23076534494715845000000, 4691007703066801800000, 4691007703066801800000),
   (678456140432852000000, 23076534494715845000000, 4691007703066801800000, 23076534494715845000000),
   (806400000000000000000, 23076534494715845000000, 4691007703066801800000, 50000000000000000000000),
   (678456140432852000000, 23076534494715845000000, 4691007703066801800000, 76923465505284150000000),
   (335843859567148050000, 23076534494715845000000, 4691007703066801800000, 95308992296933193000000),
   (399177591910603640000, 50000000000000000000000, 4691007703066801800000, 4691007703066801800000),
   (806400000000000000000, 50000000000000000000000, 4691007703066801800000, 23076534494715845000000),
   (958471625866815290000, 50000000000000000000000, 4691007703066801800000, 50000000000000000000000),
   (806400000000000000000, 50000000000000000000000, 4691007703066801800000, 76923465505284150000000),
   (399177591910603640000, 50000000000000000000000, 4691007703066801800000, 95308992296933193000000),
   (335843859567148050000, 76923465505284150000000, 4691007703066801800000, 4691007703066801800000),
   (678456140432852000000, 76923465505284150000000, 4691007703066801800000, 23076534494715845000000),
   (806400000000000000000, 76923465505284150000000, 4691007703066801800000, 50000000000000000000000),
   (678456140432852000000, 76923465505284150000000, 4691007703066801800000, 76923465505284150000000),
   (335843859567148050000, 76923465505284150000000, 4691007703066801800000, 95308992296933193000000),
   (166246705257908100000, 95308992296933193000000, 4691007703066801800000, 4691007703066801800000),
   (335843859567148050000, 95308992296933193000000, 4691007703066801800000, 23076534494715845000000),
   (399177591910603640000, 95308992296933193000000, 4691007703066801800000, 50000000000000000000000),
   (335843859567148050000, 95308992296933193000000, 4691007703066801800000, 76923465505284150000000),
   (166246705257908100000, 95308992296933193000000, 4691007703066801800000, 95308992296933193000000),
   (335843859567148050000, 4691007703066801800000, 23076534494715845000000, 4691007703066801800000),
   (678456140432852000000, 4691007703066801800000, 23076534494715845000000, 23076534494715845000000),
   (806400000000000000000, 4691007703066801800000, 23076534494715845000000, 50000000000000000000000),
   (678456140432852000000, 4691007703066801800000, 23076534494715845000000, 76923465505284150000000),
   (335843859567148050000, 4691007703066801800000, 23076534494715845000000, 95308992296933193000000),
   (678456140432852000000, 23076534494715845000000, 23076534494715845000000, 4691007703066801800000),
   (1370585530681735200000, 23076534494715845000000, 23076534494715845000000, 23076534494715845000000),
   (1629051763370603600000, 23076534494715845000000, 23076534494715845000000, 50000000000000000000000),
   (1370585530681735200000, 23076534494715845000000, 23076534494715845000000, 76923465505284150000000),
   (678456140432852000000, 23076534494715845000000, 23076534494715845000000, 95308992296933193000000),
   (806400000000000000000, 50000000000000000000000, 23076534494715845000000, 4691007703066801800000),
   (1629051763370603300000, 50000000000000000000000, 23076534494715845000000, 23076534494715845000000),
   (1936259787027560400000, 50000000000000000000000, 23076534494715845000000, 50000000000000000000000),
   (1629051763370603300000, 50000000000000000000000, 23076534494715845000000, 76923465505284150000000),
   (806400000000000000000, 50000000000000000000000, 23076534494715845000000, 95308992296933193000000),
   (678456140432852000000, 76923465505284150000000, 23076534494715845000000, 4691007703066801800000),
   (1370585530681735200000, 76923465505284150000000, 23076534494715845000000, 23076534494715845000000),
   (1629051763370603600000, 76923465505284150000000, 23076534494715845000000, 50000000000000000000000),
   (1370585530681735200000, 76923465505284150000000, 23076534494715845000000, 76923465505284150000000),
   (678456140432852000000, 76923465505284150000000, 23076534494715845000000, 95308992296933193000000),
   (335843859567148050000, 95308992296933193000000, 23076534494715845000000, 4691007703066801800000),
   (678456140432852000000, 95308992296933193000000, 23076534494715845000000, 23076534494715845000000),
   (806400000000000000000, 95308992296933193000000, 23076534494715845000000, 50000000000000000000000),
   (678456140432852000000, 95308992296933193000000, 23076534494715845000000, 76923465505284150000000),
   (335843859567148050000, 95308992296933193000000, 23076534494715845000000, 95308992296933193000000),
   (399177591910603640000, 4691007703066801800000, 50000000000000000000000, 4691007703066801800000),
   (806400000000000000000, 4691007703066801800000, 50000000000000000000000, 23076534494715845000000),
   (958471625866815290000, 4691007703066801800000, 50000000000000000000000, 50000000000000000000000),
   (806400000000000000000, 4691007703066801800000, 50000000000000000000000, 76923465505284150000000),
   (399177591910603640000, 4691007703066801800000, 50000000000000000000000, 95308992296933193000000),
   (806400000000000000000, 23076534494715845000000, 50000000000000000000000, 4691007703066801800000),
   (1629051763370603300000, 23076534494715845000000, 50000000000000000000000, 23076534494715845000000),
   (1936259787027560400000, 23076534494715845000000, 50000000000000000000000, 50000000000000000000000),
   (1629051763370603300000, 23076534494715845000000, 50000000000000000000000, 76923465505284150000000),
   (806400000000000000000, 23076534494715845000000, 50000000000000000000000, 95308992296933193000000),
   (958471625866815290000, 50000000000000000000000, 50000000000000000000000, 4691007703066801800000),
   (1936259787027560700000, 50000000000000000000000, 50000000000000000000000, 23076534494715845000000),
   (2301401371742112600000, 50000000000000000000000, 50000000000000000000000, 50000000000000000000000),
   (1936259787027560700000, 50000000000000000000000, 50000000000000000000000, 76923465505284150000000),
   (958471625866815290000, 50000000000000000000000, 50000000000000000000000, 95308992296933193000000),
   (806400000000000000000, 76923465505284150000000, 50000000000000000000000, 4691007703066801800000),
   (1629051763370603300000, 76923465505284150000000, 50000000000000000000000, 23076534494715845000000),
   (1936259787027560400000, 76923465505284150000000, 50000000000000000000000, 50000000000000000000000),
   (1629051763370603300000, 76923465505284150000000, 50000000000000000000000, 76923465505284150000000),
   (806400000000000000000, 76923465505284150000000, 50000000000000000000000, 95308992296933193000000),
   (399177591910603640000, 95308992296933193000000, 50000000000000000000000, 4691007703066801800000),
   (806400000000000000000, 95308992296933193000000, 50000000000000000000000, 23076534494715845000000),
   (958471625866815290000, 95308992296933193000000, 50000000000000000000000, 50000000000000000000000),
   (806400000000000000000, 95308992296933193000000, 50000000000000000000000, 76923465505284150000000),
   (399177591910603640000, 95308992296933193000000, 50000000000000000000000, 95308992296933193000000),
   (335843859567148050000, 4691007703066801800000, 76923465505284150000000, 4691007703066801800000),
   (678456140432852000000, 4691007703066801800000, 76923465505284150000000, 23076534494715845000000),
   (806400000000000000000, 4691007703066801800000, 76923465505284150000000, 50000000000000000000000),
   (678456140432852000000, 4691007703066801800000, 76923465505284150000000, 76923465505284150000000),
   (335843859567148050000, 4691007703066801800000, 76923465505284150000000, 95308992296933193000000),
   (678456140432852000000, 23076534494715845000000, 76923465505284150000000, 4691007703066801800000),
   (1370585530681735200000, 23076534494715845000000, 76923465505284150000000, 23076534494715845000000),
   (1629051763370603600000, 23076534494715845000000, 76923465505284150000000, 50000000000000000000000),
   (1370585530681735200000, 23076534494715845000000, 76923465505284150000000, 76923465505284150000000),
   (678456140432852000000, 23076534494715845000000, 76923465505284150000000, 95308992296933193000000),
   (806400000000000000000, 50000000000000000000000, 76923465505284150000000, 4691007703066801800000),
   (1629051763370603300000, 50000000000000000000000, 76923465505284150000000, 23076534494715845000000),
   (1936259787027560400000, 50000000000000000000000, 76923465505284150000000, 50000000000000000000000),
   (1629051763370603300000, 50000000000000000000000, 76923465505284150000000, 76923465505284150000000),
   (806400000000000000000, 50000000000000000000000, 76923465505284150000000, 95308992296933193000000),
   (678456140432852000000, 76923465505284150000000, 76923465505284150000000, 4691007703066801800000),
   (1370585530681735200000, 76923465505284150000000, 76923465505284150000000, 23076534494715845000000),
   (1629051763370603600000, 76923465505284150000000, 76923465505284150000000, 50000000000000000000000),
   (1370585530681735200000, 76923465505284150000000, 76923465505284150000000, 76923465505284150000000),
   (678456140432852000000, 76923465505284150000000, 76923465505284150000000, 95308992296933193000000),
   (335843859567148050000, 95308992296933193000000, 76923465505284150000000, 4691007703066801800000),
   (678456140432852000000, 95308992296933193000000, 76923465505284150000000, 23076534494715845000000),
   (806400000000000000000, 95308992296933193000000, 76923465505284150000000, 50000000000000000000000),
   (678456140432852000000, 95308992296933193000000, 76923465505284150000000, 76923465505284150000000),
   (335843859567148050000, 95308992296933193000000, 76923465505284150000000, 95308992296933193000000),
   (166246705257908100000, 4691007703066801800000, 95308992296933193000000, 4691007703066801800000),
   (335843859567148050000, 4691007703066801800000, 95308992296933193000000, 23076534494715845000000),
   (399177591910603640000, 4691007703066801800000, 95308992296933193000000, 50000000000000000000000),
   (335843859567148050000, 4691007703066801800000, 95308992296933193000000, 76923465505284150000000),
   (166246705257908100000, 4691007703066801800000, 95308992296933193000000, 95308992296933193000000),
   (335843859567148050000, 23076534494715845000000, 95308992296933193000000, 4691007703066801800000),
   (678456140432852000000, 23076534494715845000000, 95308992296933193000000, 23076534494715845000000),
   (806400000000000000000, 23076534494715845000000, 95308992296933193000000, 50000000000000000000000),
   (678456140432852000000, 23076534494715845000000, 95308992296933193000000, 76923465505284150000000),
   (335843859567148050000, 23076534494715845000000, 95308992296933193000000, 95308992296933193000000),
   (399177591910603640000, 50000000000000000000000, 95308992296933193000000, 4691007703066801800000),
   (806400000000000000000, 50000000000000000000000, 95308992296933193000000, 23076534494715845000000),
   (958471625866815290000, 50000000000000000000000, 95308992296933193000000, 50000000000000000000000),
   (806400000000000000000, 50000000000000000000000, 95308992296933193000000, 76923465505284150000000),
   (399177591910603640000, 50000000000000000000000, 95308992296933193000000, 95308992296933193000000),
   (335843859567148050000, 76923465505284150000000, 95308992296933193000000, 4691007703066801800000),
   (678456140432852000000, 76923465505284150000000, 95308992296933193000000, 23076534494715845000000),
   (806400000000000000000, 76923465505284150000000, 95308992296933193000000, 50000000000000000000000),
   (678456140432852000000, 76923465505284150000000, 95308992296933193000000, 76923465505284150000000),
   (335843859567148050000, 76923465505284150000000, 95308992296933193000000, 95308992296933193000000),
   (166246705257908100000, 95308992296933193000000, 95308992296933193000000, 4691007703066801800000),
   (335843859567148050000, 95308992296933193000000, 95308992296933193000000, 23076534494715845000000),
   (399177591910603640000, 95308992296933193000000, 95308992296933193000000, 50000000000000000000000),
   (335843859567148050000, 95308992296933193000000, 95308992296933193000000, 76923465505284150000000),
   (166246705257908100000, 95308992296933193000000, 95308992296933193000000, 95308992296933193000000)]

/-- Gauss rule on the hexahedron, number of points: 216 (`GeDiM/src/Quadrature/Quadrature_Gauss3D_Hexahedron.cpp:956-1823`). -/
def hexaTab11 : List (ℤ × ℕ × ℕ × ℕ) :=
  [(62859131195456359000, 3376524289842397500000, 3376524289842397500000, 3376524289842397500000),
   (132363789529425440000, 3376524289842397500000, 3376524289842397500000, 16939530676686776000000),
   (171678100387373240000, 3376524289842397500000, 3376524289842397500000, 38069040695840156000000),
   (171678100387373240000, 3376524289842397500000, 3376524289842397500000, 61930959304159849000000),
   (132363789529425440000, 3376524289842397500000, 3376524289842397500000, 83060469323313224000000),
   (62859131195456359000, 3376524289842397500000, 3376524289842397500000, 96623475710157603000000),
   (132363789529425440000, 16939530676686776000000, 3376524289842397500000, 3376524289842397500000),
   (278721204785860020000, 16939530676686776000000, 3376524289842397500000, 16939530676686776000000),
   (361506172839506190000, 16939530676686776000000, 3376524289842397500000, 38069040695840156000000),
   (361506172839506190000, 16939530676686776000000, 3376524289842397500000, 61930959304159849000000),
   (278721204785860020000, 16939530676686776000000, 3376524289842397500000, 83060469323313224000000),
   (132363789529425440000, 16939530676686776000000, 3376524289842397500000, 96623475710157603000000),
   (171678100387373220000, 38069040695840156000000, 3376524289842397500000, 3376524289842397500000),
   (361506172839506190000, 38069040695840156000000, 3376524289842397500000, 16939530676686776000000),
   (468879693245703370000, 38069040695840156000000, 3376524289842397500000, 38069040695840156000000),
   (468879693245703370000, 38069040695840156000000, 3376524289842397500000, 61930959304159849000000),
   (361506172839506190000, 38069040695840156000000, 3376524289842397500000, 83060469323313224000000),
   (171678100387373220000, 38069040695840156000000, 3376524289842397500000, 96623475710157603000000),
   (171678100387373220000, 61930959304159849000000, 3376524289842397500000, 3376524289842397500000),
   (361506172839506190000, 61930959304159849000000, 3376524289842397500000, 16939530676686776000000),
   (468879693245703370000, 61930959304159849000000, 3376524289842397500000, 38069040695840156000000),
   (468879693245703370000, 61930959304159849000000, 3376524289842397500000, 61930959304159849000000),
   (361506172839506190000, 61930959304159849000000, 3376524289842397500000, 83060469323313224000000),
   (171678100387373220000, 61930959304159849000000, 3376524289842397500000, 96623475710157603000000),
   (132363789529425440000, 83060469323313224000000, 3376524289842397500000, 3376524289842397500000),
   (278721204785860020000, 83060469323313224000000, 3376524289842397500000, 16939530676686776000000),
   (361506172839506190000, 83060469323313224000000, 3376524289842397500000, 38069040695840156000000),
   (361506172839506190000, 83060469323313224000000, 3376524289842397500000, 61930959304159849000000),
   (278721204785860020000, 83060469323313224000000, 3376524289842397500000, 83060469323313224000000),
   (132363789529425440000, 83060469323313224000000, 3376524289842397500000, 96623475710157603000000),
   (62859131195456359000, 96623475710157603000000, 3376524289842397500000, 3376524289842397500000),
   (132363789529425440000, 96623475710157603000000, 3376524289842397500000, 16939530676686776000000),
   (171678100387373240000, 96623475710157603000000, 3376524289842397500000, 38069040695840156000000),
   (171678100387373240000, 96623475710157603000000, 3376524289842397500000, 61930959304159849000000),
   (132363789529425440000, 96623475710157603000000, 3376524289842397500000, 83060469323313224000000),
   (62859131195456359000, 96623475710157603000000, 3376524289842397500000, 96623475710157603000000),
   (132363789529425440000, 3376524289842397500000, 16939530676686776000000, 3376524289842397500000),
   (278721204785860020000, 3376524289842397500000, 16939530676686776000000, 16939530676686776000000),
   (361506172839506190000, 3376524289842397500000, 16939530676686776000000, 38069040695840156000000),
   (361506172839506190000, 3376524289842397500000, 16939530676686776000000, 61930959304159849000000),
   (278721204785860020000, 3376524289842397500000, 16939530676686776000000, 83060469323313224000000),
   (132363789529425440000, 3376524289842397500000, 16939530676686776000000, 96623475710157603000000),
   (278721204785860020000, 16939530676686776000000, 16939530676686776000000, 3376524289842397500000),
   (586909080447649630000, 16939530676686776000000, 16939530676686776000000, 16939530676686776000000),
   (761231122118583270000, 16939530676686776000000, 16939530676686776000000, 38069040695840156000000),
   (761231122118583270000, 16939530676686776000000, 16939530676686776000000, 61930959304159849000000),
   (586909080447649630000, 16939530676686776000000, 16939530676686776000000, 83060469323313224000000),
   (278721204785860020000, 16939530676686776000000, 16939530676686776000000, 96623475710157603000000),
   (361506172839506230000, 38069040695840156000000, 16939530676686776000000, 3376524289842397500000),
   (761231122118583360000, 38069040695840156000000, 16939530676686776000000, 16939530676686776000000),
   (987329793636758380000, 38069040695840156000000, 16939530676686776000000, 38069040695840156000000),
   (987329793636758380000, 38069040695840156000000, 16939530676686776000000, 61930959304159849000000),
   (761231122118583360000, 38069040695840156000000, 16939530676686776000000, 83060469323313224000000),
   (361506172839506230000, 38069040695840156000000, 16939530676686776000000, 96623475710157603000000),
   (361506172839506230000, 61930959304159849000000, 16939530676686776000000, 3376524289842397500000),
   (761231122118583360000, 61930959304159849000000, 16939530676686776000000, 16939530676686776000000),
   (987329793636758380000, 61930959304159849000000, 16939530676686776000000, 38069040695840156000000),
   (987329793636758380000, 61930959304159849000000, 16939530676686776000000, 61930959304159849000000),
   (761231122118583360000, 61930959304159849000000, 16939530676686776000000, 83060469323313224000000),
   (361506172839506230000, 61930959304159849000000, 16939530676686776000000, 96623475710157603000000),
   (278721204785860020000, 83060469323313224000000, 16939530676686776000000, 3376524289842397500000),
   (586909080447649630000, 83060469323313224000000, 16939530676686776000000, 16939530676686776000000),
   (761231122118583270000, 83060469323313224000000, 16939530676686776000000, 38069040695840156000000),
   (761231122118583270000, 83060469323313224000000, 16939530676686776000000, 61930959304159849000000),
   (586909080447649630000, 83060469323313224000000, 16939530676686776000000, 83060469323313224000000),
   (278721204785860020000, 83060469323313224000000, 16939530676686776000000, 96623475710157603000000),
   (132363789529425440000, 96623475710157603000000, 16939530676686776000000, 3376524289842397500000),
   (278721204785860020000, 96623475710157603000000, 16939530676686776000000, 16939530676686776000000),
   (361506172839506190000, 96623475710157603000000, 16939530676686776000000, 38069040695840156000000),
   (361506172839506190000, 96623475710157603000000, 16939530676686776000000, 61930959304159849000000),
   (278721204785860020000, 96623475710157603000000, 16939530676686776000000, 83060469323313224000000),
   (132363789529425440000, 96623475710157603000000, 16939530676686776000000, 96623475710157603000000),
   (171678100387373220000, 3376524289842397500000, 38069040695840156000000, 3376524289842397500000),
   (361506172839506190000, 3376524289842397500000, 38069040695840156000000, 16939530676686776000000),
   (468879693245703370000, 3376524289842397500000, 38069040695840156000000, 38069040695840156000000),
   (468879693245703370000, 3376524289842397500000, 38069040695840156000000, 61930959304159849000000),
   (361506172839506190000, 3376524289842397500000, 38069040695840156000000, 83060469323313224000000),
   (171678100387373220000, 3376524289842397500000, 38069040695840156000000, 96623475710157603000000),
   (361506172839506230000, 16939530676686776000000, 38069040695840156000000, 3376524289842397500000),
   (761231122118583360000, 16939530676686776000000, 38069040695840156000000, 16939530676686776000000),
   (987329793636758380000, 16939530676686776000000, 38069040695840156000000, 38069040695840156000000),
   (987329793636758380000, 16939530676686776000000, 38069040695840156000000, 61930959304159849000000),
   (761231122118583360000, 16939530676686776000000, 38069040695840156000000, 83060469323313224000000),
   (361506172839506230000, 16939530676686776000000, 38069040695840156000000, 96623475710157603000000),
   (468879693245703370000, 38069040695840156000000, 38069040695840156000000, 3376524289842397500000),
   (987329793636758210000, 38069040695840156000000, 38069040695840156000000, 16939530676686776000000),
   (1280583640208745600000, 38069040695840156000000, 38069040695840156000000, 38069040695840156000000),
   (1280583640208745600000, 38069040695840156000000, 38069040695840156000000, 61930959304159849000000),
   (987329793636758210000, 38069040695840156000000, 38069040695840156000000, 83060469323313224000000),
   (468879693245703370000, 38069040695840156000000, 38069040695840156000000, 96623475710157603000000),
   (468879693245703370000, 61930959304159849000000, 38069040695840156000000, 3376524289842397500000),
   (987329793636758210000, 61930959304159849000000, 38069040695840156000000, 16939530676686776000000),
   (1280583640208745600000, 61930959304159849000000, 38069040695840156000000, 38069040695840156000000),
   (1280583640208745600000, 61930959304159849000000, 38069040695840156000000, 61930959304159849000000),
   (987329793636758210000, 61930959304159849000000, 38069040695840156000000, 83060469323313224000000),
   (468879693245703370000, 61930959304159849000000, 38069040695840156000000, 96623475710157603000000),
   (361506172839506230000, 83060469323313224000000, 38069040695840156000000, 3376524289842397500000),
   (761231122118583360000, 83060469323313224000000, 38069040695840156000000, 16939530676686776000000),
   (987329793636758380000, 83060469323313224000000, 38069040695840156000000, 38069040695840156000000),
   (987329793636758380000, 83060469323313224000000, 38069040695840156000000, 61930959304159849000000),
   (761231122118583360000, 83060469323313224000000, 38069040695840156000000, 83060469323313224000000),
   (361506172839506230000, 83060469323313224000000, 38069040695840156000000, 96623475710157603000000),
   (171678100387373220000, 96623475710157603000000, 38069040695840156000000, 3376524289842397500000),
   (361506172839506190000, 96623475710157603000000, 38069040695840156000000, 16939530676686776000000),
   (468879693245703370000, 96623475710157603000000, 38069040695840156000000, 38069040695840156000000),
   (468879693245703370000, 96623475710157603000000, 38069040695840156000000, 61930959304159849000000),
   (361506172839506190000, 96623475710157603000000, 38069040695840156000000, 83060469323313224000000),
   (171678100387373220000, 96623475710157603000000, 38069040695840156000000, 96623475710157603000000),
   (171678100387373220000, 3376524289842397500000, 61930959304159849000000, 3376524289842397500000),
   (361506172839506190000, 3376524289842397500000, 61930959304159849000000, 16939530676686776000000),
   (468879693245703370000, 3376524289842397500000, 61930959304159849000000, 38069040695840156000000),
   (468879693245703370000, 3376524289842397500000, 61930959304159849000000, 61930959304159849000000),
   (361506172839506190000, 3376524289842397500000, 61930959304159849000000, 83060469323313224000000),
   (171678100387373220000, 3376524289842397500000, 61930959304159849000000, 96623475710157603000000),
   (361506172839506230000, 16939530676686776000000, 61930959304159849000000, 3376524289842397500000),
   (761231122118583360000, 16939530676686776000000, 61930959304159849000000, 16939530676686776000000),
   (987329793636758380000, 16939530676686776000000, 61930959304159849000000, 38069040695840156000000),
   (987329793636758380000, 16939530676686776000000, 61930959304159849000000, 61930959304159849000000),
   (761231122118583360000, 16939530676686776000000, 61930959304159849000000, 83060469323313224000000),
   (361506172839506230000, 16939530676686776000000, 61930959304159849000000, 96623475710157603000000),
   (468879693245703370000, 38069040695840156000000, 61930959304159849000000, 3376524289842397500000),
   (987329793636758210000, 38069040695840156000000, 61930959304159849000000, 16939530676686776000000),
   (1280583640208745600000, 38069040695840156000000, 61930959304159849000000, 38069040695840156000000),
   (1280583640208745600000, 38069040695840156000000, 61930959304159849000000, 61930959304159849000000),
   (987329793636758210000, 38069040695840156000000, 61930959304159849000000, 83060469323313224000000),
   (468879693245703370000, 38069040695840156000000, 61930959304159849000000, 96623475710157603000000),
   (468879693245703370000, 61930959304159849000000, 61930959304159849000000, 3376524289842397500000),
   (987329793636758210000, 61930959304159849000000, 61930959304159849000000, 16939530676686776000000),
   (1280583640208745600000, 61930959304159849000000, 61930959304159849000000, 38069040695840156000000),
   (1280583640208745600000, 61930959304159849000000, 61930959304159849000000, 61930959304159849000000),
   (987329793636758210000, 61930959304159849000000, 61930959304159849000000, 83060469323313224000000),
   (468879693245703370000, 61930959304159849000000, 61930959304159849000000, 96623475710157603000000),
   (361506172839506230000, 83060469323313224000000, 61930959304159849000000, 3376524289842397500000),
   (761231122118583360000, 83060469323313224000000, 61930959304159849000000, 16939530676686776000000),
   (987329793636758380000, 83060469323313224000000, 61930959304159849000000, 38069040695840156000000),
   (987329793636758380000, 83060469323313224000000, 61930959304159849000000, 61930959304159849000000),
   (761231122118583360000, 83060469323313224000000, 61930959304159849000000, 83060469323313224000000),
   (361506172839506230000, 83060469323313224000000, 61930959304159849000000, 96623475710157603000000),
   (171678100387373220000, 96623475710157603000000, 61930959304159849000000, 3376524289842397500000),
   (361506172839506190000, 96623475710157603000000, 61930959304159849000000, 16939530676686776000000),
   (468879693245703370000, 96623475710157603000000, 61930959304159849000000, 38069040695840156000000),
   (468879693245703370000, 96623475710157603000000, 61930959304159849000000, 61930959304159849000000),
   (361506172839506190000, 96623475710157603000000, 61930959304159849000000, 83060469323313224000000),
   (171678100387373220000, 96623475710157603000000, 61930959304159849000000, 96623475710157603000000),
   (132363789529425440000, 3376524289842397500000, 83060469323313224000000, 3376524289842397500000),
   (278721204785860020000, 3376524289842397500000, 83060469323313224000000, 16939530676686776000000),
   (361506172839506190000, 3376524289842397500000, 83060469323313224000000, 38069040695840156000000),
   (361506172839506190000, 3376524289842397500000, 83060469323313224000000, 61930959304159849000000),
   (278721204785860020000, 3376524289842397500000, 83060469323313224000000, 83060469323313224000000),
   (132363789529425440000, 3376524289842397500000, 83060469323313224000000, 96623475710157603000000),
   (278721204785860020000, 16939530676686776000000, 83060469323313224000000, 3376524289842397500000),
   (586909080447649630000, 16939530676686776000000, 83060469323313224000000, 16939530676686776000000),
   (761231122118583270000, 16939530676686776000000, 83060469323313224000000, 38069040695840156000000),
   (761231122118583270000, 16939530676686776000000, 83060469323313224000000, 61930959304159849000000),
   (586909080447649630000, 16939530676686776000000, 83060469323313224000000, 83060469323313224000000),
   (278721204785860020000, 16939530676686776000000, 83060469323313224000000, 96623475710157603000000),
   (361506172839506230000, 38069040695840156000000, 83060469323313224000000, 3376524289842397500000),
   (761231122118583360000, 38069040695840156000000, 83060469323313224000000, 16939530676686776000000),
   (987329793636758380000, 38069040695840156000000, 83060469323313224000000, 38069040695840156000000),
   (987329793636758380000, 38069040695840156000000, 83060469323313224000000, 61930959304159849000000),
   (761231122118583360000, 38069040695840156000000, 83060469323313224000000, 83060469323313224000000),
   (361506172839506230000, 38069040695840156000000, 83060469323313224000000, 96623475710157603000000),
   (361506172839506230000, 61930959304159849000000, 83060469323313224000000, 3376524289842397500000),
   (761231122118583360000, 61930959304159849000000, 83060469323313224000000, 16939530676686776000000),
   (987329793636758380000, 61930959304159849000000, 83060469323313224000000, 38069040695840156000000),
   (987329793636758380000, 61930959304159849000000, 83060469323313224000000, 61930959304159849000000),
   (761231122118583360000, 61930959304159849000000, 83060469323313224000000, 83060469323313224000000),
   (361506172839506230000, 61930959304159849000000, 83060469323313224000000, 96623475710157603000000),
   (278721204785860020000, 83060469323313224000000, 83060469323313224000000, 3376524289842397500000),
   (586909080447649630000, 83060469323313224000000, 83060469323313224000000, 16939530676686776000000),
   (761231122118583270000, 83060469323313224000000, 83060469323313224000000, 38069040695840156000000),
   (761231122118583270000, 83060469323313224000000, 83060469323313224000000, 61930959304159849000000),
   (586909080447649630000, 83060469323313224000000, 83060469323313224000000, 83060469323313224000000),
   (278721204785860020000, 83060469323313224000000, 83060469323313224000000, 96623475710157603000000),
   (132363789529425440000, 96623475710157603000000, 83060469323313224000000, 3376524289842397500000),
   (278721204785860020000, 96623475710157603000000, 83060469323313224000000, 16939530676686776000000),
   (361506172839506190000, 96623475710157603000000, 83060469323313224000000, 38069040695840156000000),
   (361506172839506190000, 96623475710157603000000, 83060469323313224000000, 61930959304159849000000),
   (278721204785860020000, 96623475710157603000000, 83060469323313224000000, 83060469323313224000000),
   (132363789529425440000, 96623475710157603000000, 83060469323313224000000, 96623475710157603000000),
   (62859131195456359000, 3376524289842397500000, 96623475710157603000000, 3376524289842397500000),
   (132363789529425440000, 3376524289842397500000, 96623475710157603000000, 16939530676686776000000),
   (171678100387373240000, 3376524289842397500000, 96623475710157603000000, 38069040695840156000000),
   (171678100387373240000, 3376524289842397500000, 96623475710157603000000, 61930959304159849000000),
   (132363789529425440000, 3376524289842397500000, 96623475710157603000000, 83060469323313224000000),
   (62859131195456359000, 3376524289842397500000, 96623475710157603000000, 96623475710157603000000),
   (132363789529425440000, 16939530676686776000000, 96623475710157603000000, 3376524289842397500000),
   (278721204785860020000, 16939530676686776000000, 96623475710157603000000, 16939530676686776000000),
   (361506172839506190000, 16939530676686776000000, 96623475710157603000000, 38069040695840156000000),
   (361506172839506190000, 16939530676686776000000, 96623475710157603000000, 61930959304159849000000),
   (278721204785860020000, 16939530676686776000000, 96623475710157603000000, 83060469323313224000000),
   (132363789529425440000, 16939530676686776000000, 96623475710157603000000, 96623475710157603000000),
   (171678100387373220000, 38069040695840156000000, 96623475710157603000000, 3376524289842397500000),
   (361506172839506190000, 38069040695840156000000, 96623475710157603000000, 16939530676686776000000),
   (468879693245703370000, 38069040695840156000000, 96623475710157603000000, 38069040695840156000000),
   (468879693245703370000, 38069040695840156000000, 96623475710157603000000, 61930959304159849000000),
   (361506172839506190000, 38069040695840156000000, 96623475710157603000000, 83060469323313224000000),
   (171678100387373220000, 38069040695840156000000, 96623475710157603000000, 96623475710157603000000),
   (171678100387373220000, 61930959304159849000000, 96623475710157603000000, 3376524289842397500000),
   (361506172839506190000, 61930959304159849000000, 96623475710157603000000, 16939530676686776000000),
   (468879693245703370000, 61930959304159849000000, 96623475710157603000000, 38069040695840156000000),
   (468879693245703370000, 61930959304159849000000, 96623475710157603000000, 61930959304159849000000),
   (361506172839506190000, 61930959304159849000000, 96623475710157603000000, 83060469323313224000000),
   (171678100387373220000, 61930959304159849000000, 96623475710157603000000, 96623475710157603000000),
   (132363789529425440000, 83060469323313224000000, 96623475710157603000000, 3376524289842397500000),
   (278721204785860020000, 83060469323313224000000, 96623475710157603000000, 16939530676686776000000),
   (361506172839506190000, 83060469323313224000000, 96623475710157603000000, 38069040695840156000000),
   (361506172839506190000, 83060469323313224000000, 96623475710157603000000, 61930959304159849000000),
   (278721204785860020000, 83060469323313224000000, 96623475710157603000000, 83060469323313224000000),
   (132363789529425440000, 83060469323313224000000, 96623475710157603000000, 96623475710157603000000),
   (62859131195456359000, 96623475710157603000000, 96623475710157603000000, 3376524289842397500000),
   (132363789529425440000, 96623475710157603000000, 96623475710157603000000, 16939530676686776000000),
   (171678100387373240000, 96623475710157603000000, 96623475710157603000000, 38069040695840156000000),
   (171678100387373240000, 96623475710157603000000, 96623475710157603000000, 61930959304159849000000),
   (132363789529425440000, 96623475710157603000000, 96623475710157603000000, 83060469323313224000000),
   (62859131195456359000, 96623475710157603000000, 96623475710157603000000, 96623475710157603000000)]

/-- Gauss rule on the hexahedron, number of points: 343 (`GeDiM/src/Quadrature/Quadrature_Gauss3D_Hexahedron.cpp:1826-3201`). -/
def hexaTab13 : List (ℤ × ℕ × ℕ × ℕ) :=
  [(27137388743553873000, 2544604382862075700000, 2544604382862075700000, 2544604382862075700000),
   (58620503731786117000, 2544604382862075700000, 2544604382862075700000, 12923440720030277000000),
   (80023734191772013000, 2544604382862075700000, 2544604382862075700000, 29707742431130141000000),
   (87595658259609235000, 2544604382862075700000, 2544604382862075700000, 50000000000000000000000),
   (80023734191772013000, 2544604382862075700000, 2544604382862075700000, 70292257568869854000000),
   (58620503731786117000, 2544604382862075700000, 2544604382862075700000, 87076559279969723000000),
   (27137388743553873000, 2544604382862075700000, 2544604382862075700000, 97455395617137919000000),
   (58620503731786117000, 12923440720030277000000, 2544604382862075700000, 2544604382862075700000),
   (126628375715943280000, 12923440720030277000000, 2544604382862075700000, 12923440720030277000000),
   (172862306434495260000, 12923440720030277000000, 2544604382862075700000, 29707742431130141000000),
   (189218707091536670000, 12923440720030277000000, 2544604382862075700000, 50000000000000000000000),
   (172862306434495260000, 12923440720030277000000, 2544604382862075700000, 70292257568869854000000),
   (126628375715943280000, 12923440720030277000000, 2544604382862075700000, 87076559279969723000000),
   (58620503731786117000, 12923440720030277000000, 2544604382862075700000, 97455395617137919000000),
   (80023734191772024000, 29707742431130141000000, 2544604382862075700000, 2544604382862075700000),
   (172862306434495260000, 29707742431130141000000, 2544604382862075700000, 12923440720030277000000),
   (235976942900098300000, 29707742431130141000000, 2544604382862075700000, 29707742431130141000000),
   (258305312245097220000, 29707742431130141000000, 2544604382862075700000, 50000000000000000000000),
   (235976942900098300000, 29707742431130141000000, 2544604382862075700000, 70292257568869854000000),
   (172862306434495260000, 29707742431130141000000, 2544604382862075700000, 87076559279969723000000),
   (80023734191772024000, 29707742431130141000000, 2544604382862075700000, 97455395617137919000000),
   (87595658259609246000, 50000000000000000000000, 2544604382862075700000, 2544604382862075700000),
   (189218707091536690000, 50000000000000000000000, 2544604382862075700000, 12923440720030277000000),
   (258305312245097220000, 50000000000000000000000, 2544604382862075700000, 29707742431130141000000),
   (282746413755703310000, 50000000000000000000000, 2544604382862075700000, 50000000000000000000000),
   (258305312245097220000, 50000000000000000000000, 2544604382862075700000, 70292257568869854000000),
   (189218707091536690000, 50000000000000000000000, 2544604382862075700000, 87076559279969723000000),
   (87595658259609246000, 50000000000000000000000, 2544604382862075700000, 97455395617137919000000),
   (80023734191772024000, 70292257568869854000000, 2544604382862075700000, 2544604382862075700000),
   (172862306434495260000, 70292257568869854000000, 2544604382862075700000, 12923440720030277000000),
   (235976942900098300000, 70292257568869854000000, 2544604382862075700000, 29707742431130141000000),
   (258305312245097220000, 70292257568869854000000, 2544604382862075700000, 50000000000000000000000),
   (235976942900098300000, 70292257568869854000000, 2544604382862075700000, 70292257568869854000000),
   (172862306434495260000, 70292257568869854000000, 2544604382862075700000, 87076559279969723000000),
   (80023734191772024000, 70292257568869854000000, 2544604382862075700000, 97455395617137919000000),
   (58620503731786117000, 87076559279969723000000, 2544604382862075700000, 2544604382862075700000),
   (126628375715943280000, 87076559279969723000000, 2544604382862075700000, 12923440720030277000000),
   (172862306434495260000, 87076559279969723000000, 2544604382862075700000, 29707742431130141000000),
   (189218707091536670000, 87076559279969723000000, 2544604382862075700000, 50000000000000000000000),
   (172862306434495260000, 87076559279969723000000, 2544604382862075700000, 70292257568869854000000),
   (126628375715943280000, 87076559279969723000000, 2544604382862075700000, 87076559279969723000000),
   (58620503731786117000, 87076559279969723000000, 2544604382862075700000, 97455395617137919000000),
   (27137388743553873000, 97455395617137919000000, 2544604382862075700000, 2544604382862075700000),
   (58620503731786117000, 97455395617137919000000, 2544604382862075700000, 12923440720030277000000),
   (80023734191772013000, 97455395617137919000000, 2544604382862075700000, 29707742431130141000000),
   (87595658259609235000, 97455395617137919000000, 2544604382862075700000, 50000000000000000000000),
   (80023734191772013000, 97455395617137919000000, 2544604382862075700000, 70292257568869854000000),
   (58620503731786117000, 97455395617137919000000, 2544604382862075700000, 87076559279969723000000),
   (27137388743553873000, 97455395617137919000000, 2544604382862075700000, 97455395617137919000000),
   (58620503731786117000, 2544604382862075700000, 12923440720030277000000, 2544604382862075700000),
   (126628375715943280000, 2544604382862075700000, 12923440720030277000000, 12923440720030277000000),
   (172862306434495260000, 2544604382862075700000, 12923440720030277000000, 29707742431130141000000),
   (189218707091536670000, 2544604382862075700000, 12923440720030277000000, 50000000000000000000000),
   (172862306434495260000, 2544604382862075700000, 12923440720030277000000, 70292257568869854000000),
   (126628375715943280000, 2544604382862075700000, 12923440720030277000000, 87076559279969723000000),
   (58620503731786117000, 2544604382862075700000, 12923440720030277000000, 97455395617137919000000),
   (126628375715943280000, 12923440720030277000000, 12923440720030277000000, 2544604382862075700000),
   (273534761997677730000, 12923440720030277000000, 12923440720030277000000, 12923440720030277000000),
   (373406431075116230000, 12923440720030277000000, 12923440720030277000000, 29707742431130141000000),
   (408738513126763110000, 12923440720030277000000, 12923440720030277000000, 50000000000000000000000),
   (373406431075116230000, 12923440720030277000000, 12923440720030277000000, 70292257568869854000000),
   (273534761997677730000, 12923440720030277000000, 12923440720030277000000, 87076559279969723000000),
   (126628375715943280000, 12923440720030277000000, 12923440720030277000000, 97455395617137919000000),
   (172862306434495240000, 29707742431130141000000, 12923440720030277000000, 2544604382862075700000),
   (373406431075116230000, 29707742431130141000000, 12923440720030277000000, 12923440720030277000000),
   (509742753535067250000, 29707742431130141000000, 12923440720030277000000, 29707742431130141000000),
   (557975111883256440000, 29707742431130141000000, 12923440720030277000000, 50000000000000000000000),
   (509742753535067250000, 29707742431130141000000, 12923440720030277000000, 70292257568869854000000),
   (373406431075116230000, 29707742431130141000000, 12923440720030277000000, 87076559279969723000000),
   (172862306434495240000, 29707742431130141000000, 12923440720030277000000, 97455395617137919000000),
   (189218707091536670000, 50000000000000000000000, 12923440720030277000000, 2544604382862075700000),
   (408738513126763200000, 50000000000000000000000, 12923440720030277000000, 12923440720030277000000),
   (557975111883256530000, 50000000000000000000000, 12923440720030277000000, 29707742431130141000000),
   (610771263195043250000, 50000000000000000000000, 12923440720030277000000, 50000000000000000000000),
   (557975111883256530000, 50000000000000000000000, 12923440720030277000000, 70292257568869854000000),
   (408738513126763200000, 50000000000000000000000, 12923440720030277000000, 87076559279969723000000),
   (189218707091536670000, 50000000000000000000000, 12923440720030277000000, 97455395617137919000000),
   (172862306434495240000, 70292257568869854000000, 12923440720030277000000, 2544604382862075700000),
   (373406431075116230000, 70292257568869854000000, 12923440720030277000000, 12923440720030277000000),
   (509742753535067250000, 70292257568869854000000, 12923440720030277000000, 29707742431130141000000),
   (557975111883256440000, 70292257568869854000000, 12923440720030277000000, 50000000000000000000000),
   (509742753535067250000, 70292257568869854000000, 12923440720030277000000, 70292257568869854000000),
   (373406431075116230000, 70292257568869854000000, 12923440720030277000000, 87076559279969723000000),
   (172862306434495240000, 70292257568869854000000, 12923440720030277000000, 97455395617137919000000),
   (126628375715943280000, 87076559279969723000000, 12923440720030277000000, 2544604382862075700000),
   (273534761997677730000, 87076559279969723000000, 12923440720030277000000, 12923440720030277000000),
   (373406431075116230000, 87076559279969723000000, 12923440720030277000000, 29707742431130141000000),
   (408738513126763110000, 87076559279969723000000, 12923440720030277000000, 50000000000000000000000),
   (373406431075116230000, 87076559279969723000000, 12923440720030277000000, 70292257568869854000000),
   (273534761997677730000, 87076559279969723000000, 12923440720030277000000, 87076559279969723000000),
   (126628375715943280000, 87076559279969723000000, 12923440720030277000000, 97455395617137919000000),
   (58620503731786117000, 97455395617137919000000, 12923440720030277000000, 2544604382862075700000),
   (126628375715943280000, 97455395617137919000000, 12923440720030277000000, 12923440720030277000000),
   (172862306434495260000, 97455395617137919000000, 12923440720030277000000, 29707742431130141000000),
   (189218707091536670000, 97455395617137919000000, 12923440720030277000000, 50000000000000000000000),
   (172862306434495260000, 97455395617137919000000, 12923440720030277000000, 70292257568869854000000),
   (126628375715943280000, 97455395617137919000000, 12923440720030277000000, 87076559279969723000000),
   (58620503731786117000, 97455395617137919000000, 12923440720030277000000, 97455395617137919000000),
   (80023734191772024000, 2544604382862075700000, 29707742431130141000000, 2544604382862075700000),
   (172862306434495260000, 2544604382862075700000, 29707742431130141000000, 12923440720030277000000),
   (235976942900098300000, 2544604382862075700000, 29707742431130141000000, 29707742431130141000000),
   (258305312245097220000, 2544604382862075700000, 29707742431130141000000, 50000000000000000000000),
   (235976942900098300000, 2544604382862075700000, 29707742431130141000000, 70292257568869854000000),
   (172862306434495260000, 2544604382862075700000, 29707742431130141000000, 87076559279969723000000),
   (80023734191772024000, 2544604382862075700000, 29707742431130141000000, 97455395617137919000000),
   (172862306434495240000, 12923440720030277000000, 29707742431130141000000, 2544604382862075700000),
   (373406431075116230000, 12923440720030277000000, 29707742431130141000000, 12923440720030277000000),
   (509742753535067250000, 12923440720030277000000, 29707742431130141000000, 29707742431130141000000),
   (557975111883256440000, 12923440720030277000000, 29707742431130141000000, 50000000000000000000000),
   (509742753535067250000, 12923440720030277000000, 29707742431130141000000, 70292257568869854000000),
   (373406431075116230000, 12923440720030277000000, 29707742431130141000000, 87076559279969723000000),
   (172862306434495240000, 12923440720030277000000, 29707742431130141000000, 97455395617137919000000),
   (235976942900098300000, 29707742431130141000000, 29707742431130141000000, 2544604382862075700000),
   (509742753535067250000, 29707742431130141000000, 29707742431130141000000, 12923440720030277000000),
   (695857524556780120000, 29707742431130141000000, 29707742431130141000000, 29707742431130141000000),
   (761700244734650390000, 29707742431130141000000, 29707742431130141000000, 50000000000000000000000),
   (695857524556780120000, 29707742431130141000000, 29707742431130141000000, 70292257568869854000000),
   (509742753535067250000, 29707742431130141000000, 29707742431130141000000, 87076559279969723000000),
   (235976942900098300000, 29707742431130141000000, 29707742431130141000000, 97455395617137919000000),
   (258305312245097220000, 50000000000000000000000, 29707742431130141000000, 2544604382862075700000),
   (557975111883256530000, 50000000000000000000000, 29707742431130141000000, 12923440720030277000000),
   (761700244734650390000, 50000000000000000000000, 29707742431130141000000, 29707742431130141000000),
   (833773067551969210000, 50000000000000000000000, 29707742431130141000000, 50000000000000000000000),
   (761700244734650390000, 50000000000000000000000, 29707742431130141000000, 70292257568869854000000),
   (557975111883256530000, 50000000000000000000000, 29707742431130141000000, 87076559279969723000000),
   (258305312245097220000, 50000000000000000000000, 29707742431130141000000, 97455395617137919000000),
   (235976942900098300000, 70292257568869854000000, 29707742431130141000000, 2544604382862075700000),
   (509742753535067250000, 70292257568869854000000, 29707742431130141000000, 12923440720030277000000),
   (695857524556780120000, 70292257568869854000000, 29707742431130141000000, 29707742431130141000000),
   (761700244734650390000, 70292257568869854000000, 29707742431130141000000, 50000000000000000000000),
   (695857524556780120000, 70292257568869854000000, 29707742431130141000000, 70292257568869854000000),
   (509742753535067250000, 70292257568869854000000, 29707742431130141000000, 87076559279969723000000),
   (235976942900098300000, 70292257568869854000000, 29707742431130141000000, 97455395617137919000000),
   (172862306434495240000, 87076559279969723000000, 29707742431130141000000, 2544604382862075700000),
   (373406431075116230000, 87076559279969723000000, 29707742431130141000000, 12923440720030277000000),
   (509742753535067250000, 87076559279969723000000, 29707742431130141000000, 29707742431130141000000),
   (557975111883256440000, 87076559279969723000000, 29707742431130141000000, 50000000000000000000000),
   (509742753535067250000, 87076559279969723000000, 29707742431130141000000, 70292257568869854000000),
   (373406431075116230000, 87076559279969723000000, 29707742431130141000000, 87076559279969723000000),
   (172862306434495240000, 87076559279969723000000, 29707742431130141000000, 97455395617137919000000),
   (80023734191772024000, 97455395617137919000000, 29707742431130141000000, 2544604382862075700000),
   (172862306434495260000, 97455395617137919000000, 29707742431130141000000, 12923440720030277000000),
   (235976942900098300000, 97455395617137919000000, 29707742431130141000000, 29707742431130141000000),
   (258305312245097220000, 97455395617137919000000, 29707742431130141000000, 50000000000000000000000),
   (235976942900098300000, 97455395617137919000000, 29707742431130141000000, 70292257568869854000000),
   (172862306434495260000, 97455395617137919000000, 29707742431130141000000, 87076559279969723000000),
   (80023734191772024000, 97455395617137919000000, 29707742431130141000000, 97455395617137919000000),
   (87595658259609246000, 2544604382862075700000, 50000000000000000000000, 2544604382862075700000),
   (189218707091536690000, 2544604382862075700000, 50000000000000000000000, 12923440720030277000000),
   (258305312245097220000, 2544604382862075700000, 50000000000000000000000, 29707742431130141000000),
   (282746413755703310000, 2544604382862075700000, 50000000000000000000000, 50000000000000000000000),
   (258305312245097220000, 2544604382862075700000, 50000000000000000000000, 70292257568869854000000),
   (189218707091536690000, 2544604382862075700000, 50000000000000000000000, 87076559279969723000000),
   (87595658259609246000, 2544604382862075700000, 50000000000000000000000, 97455395617137919000000),
   (189218707091536670000, 12923440720030277000000, 50000000000000000000000, 2544604382862075700000),
   (408738513126763200000, 12923440720030277000000, 50000000000000000000000, 12923440720030277000000),
   (557975111883256530000, 12923440720030277000000, 50000000000000000000000, 29707742431130141000000),
   (610771263195043250000, 12923440720030277000000, 50000000000000000000000, 50000000000000000000000),
   (557975111883256530000, 12923440720030277000000, 50000000000000000000000, 70292257568869854000000),
   (408738513126763200000, 12923440720030277000000, 50000000000000000000000, 87076559279969723000000),
   (189218707091536670000, 12923440720030277000000, 50000000000000000000000, 97455395617137919000000),
   (258305312245097220000, 29707742431130141000000, 50000000000000000000000, 2544604382862075700000),
   (557975111883256530000, 29707742431130141000000, 50000000000000000000000, 12923440720030277000000),
   (761700244734650390000, 29707742431130141000000, 50000000000000000000000, 29707742431130141000000),
   (833773067551969210000, 29707742431130141000000, 50000000000000000000000, 50000000000000000000000),
   (761700244734650390000, 29707742431130141000000, 50000000000000000000000, 70292257568869854000000),
   (557975111883256530000, 29707742431130141000000, 50000000000000000000000, 87076559279969723000000),
   (258305312245097220000, 29707742431130141000000, 50000000000000000000000, 97455395617137919000000),
   (282746413755703310000, 50000000000000000000000, 50000000000000000000000, 2544604382862075700000),
   (610771263195043250000, 50000000000000000000000, 50000000000000000000000, 12923440720030277000000),
   (833773067551969210000, 50000000000000000000000, 50000000000000000000000, 29707742431130141000000),
   (912665491419391820000, 50000000000000000000000, 50000000000000000000000, 50000000000000000000000),
   (833773067551969210000, 50000000000000000000000, 50000000000000000000000, 70292257568869854000000),
   (610771263195043250000, 50000000000000000000000, 50000000000000000000000, 87076559279969723000000),
   (282746413755703310000, 50000000000000000000000, 50000000000000000000000, 97455395617137919000000),
   (258305312245097220000, 70292257568869854000000, 50000000000000000000000, 2544604382862075700000),
   (557975111883256530000, 70292257568869854000000, 50000000000000000000000, 12923440720030277000000),
   (761700244734650390000, 70292257568869854000000, 50000000000000000000000, 29707742431130141000000),
   (833773067551969210000, 70292257568869854000000, 50000000000000000000000, 50000000000000000000000),
   (761700244734650390000, 70292257568869854000000, 50000000000000000000000, 70292257568869854000000),
   (557975111883256530000, 70292257568869854000000, 50000000000000000000000, 87076559279969723000000),
   (258305312245097220000, 70292257568869854000000, 50000000000000000000000, 97455395617137919000000),
   (189218707091536670000, 87076559279969723000000, 50000000000000000000000, 2544604382862075700000),
   (408738513126763200000, 87076559279969723000000, 50000000000000000000000, 12923440720030277000000),
   (557975111883256530000, 87076559279969723000000, 50000000000000000000000, 29707742431130141000000),
   (610771263195043250000, 87076559279969723000000, 50000000000000000000000, 50000000000000000000000),
   (557975111883256530000, 87076559279969723000000, 50000000000000000000000, 70292257568869854000000),
   (408738513126763200000, 87076559279969723000000, 50000000000000000000000, 87076559279969723000000),
   (189218707091536670000, 87076559279969723000000, 50000000000000000000000, 97455395617137919000000),
   (87595658259609246000, 97455395617137919000000, 50000000000000000000000, 2544604382862075700000),
   (189218707091536690000, 97455395617137919000000, 50000000000000000000000, 12923440720030277000000),
   (258305312245097220000, 97455395617137919000000, 50000000000000000000000, 29707742431130141000000),
   (282746413755703310000, 97455395617137919000000, 50000000000000000000000, 50000000000000000000000),
   (258305312245097220000, 97455395617137919000000, 50000000000000000000000, 70292257568869854000000),
   (189218707091536690000, 97455395617137919000000, 50000000000000000000000, 87076559279969723000000),
   (87595658259609246000, 97455395617137919000000, 50000000000000000000000, 97455395617137919000000),
   (80023734191772024000, 2544604382862075700000, 70292257568869854000000, 2544604382862075700000),
   (172862306434495260000, 2544604382862075700000, 70292257568869854000000, 12923440720030277000000),
   (235976942900098300000, 2544604382862075700000, 70292257568869854000000, 29707742431130141000000),
   (258305312245097220000, 2544604382862075700000, 70292257568869854000000, 50000000000000000000000),
   (235976942900098300000, 2544604382862075700000, 70292257568869854000000, 70292257568869854000000),
   (172862306434495260000, 2544604382862075700000, 70292257568869854000000, 87076559279969723000000),
   (80023734191772024000, 2544604382862075700000, 70292257568869854000000, 97455395617137919000000),
   (172862306434495240000, 12923440720030277000000, 70292257568869854000000, 2544604382862075700000),
   (373406431075116230000, 12923440720030277000000, 70292257568869854000000, 12923440720030277000000),
   (509742753535067250000, 12923440720030277000000, 70292257568869854000000, 29707742431130141000000),
   (557975111883256440000, 12923440720030277000000, 70292257568869854000000, 50000000000000000000000),
   (509742753535067250000, 12923440720030277000000, 70292257568869854000000, 70292257568869854000000),
   (373406431075116230000, 12923440720030277000000, 70292257568869854000000, 87076559279969723000000),
   (172862306434495240000, 12923440720030277000000, 70292257568869854000000, 97455395617137919000000),
   (235976942900098300000, 29707742431130141000000, 70292257568869854000000, 2544604382862075700000),
   (509742753535067250000, 29707742431130141000000, 70292257568869854000000, 12923440720030277000000),
   (695857524556780120000, 29707742431130141000000, 70292257568869854000000, 29707742431130141000000),
   (761700244734650390000, 29707742431130141000000, 70292257568869854000000, 50000000000000000000000),
   (695857524556780120000, 29707742431130141000000, 70292257568869854000000, 70292257568869854000000),
   (509742753535067250000, 29707742431130141000000, 70292257568869854000000, 87076559279969723000000),
   (235976942900098300000, 29707742431130141000000, 70292257568869854000000, 97455395617137919000000),
   (258305312245097220000, 50000000000000000000000, 70292257568869854000000, 2544604382862075700000),
   (557975111883256530000, 50000000000000000000000, 70292257568869854000000, 12923440720030277000000),
   (761700244734650390000, 50000000000000000000000, 70292257568869854000000, 29707742431130141000000),
   (833773067551969210000, 50000000000000000000000, 70292257568869854000000, 50000000000000000000000),
   (761700244734650390000, 50000000000000000000000, 70292257568869854000000, 70292257568869854000000),
   (557975111883256530000, 50000000000000000000000, 70292257568869854000000, 87076559279969723000000),
   (258305312245097220000, 50000000000000000000000, 70292257568869854000000, 97455395617137919000000),
   (235976942900098300000, 70292257568869854000000, 70292257568869854000000, 2544604382862075700000),
   (509742753535067250000, 70292257568869854000000, 70292257568869854000000, 12923440720030277000000),
   (695857524556780120000, 70292257568869854000000, 70292257568869854000000, 29707742431130141000000),
   (761700244734650390000, 70292257568869854000000, 70292257568869854000000, 50000000000000000000000),
   (695857524556780120000, 70292257568869854000000, 70292257568869854000000, 70292257568869854000000),
   (509742753535067250000, 70292257568869854000000, 70292257568869854000000, 87076559279969723000000),
   (235976942900098300000, 70292257568869854000000, 70292257568869854000000, 97455395617137919000000),
   (172862306434495240000, 87076559279969723000000, 70292257568869854000000, 2544604382862075700000),
   (373406431075116230000, 87076559279969723000000, 70292257568869854000000, 12923440720030277000000),
   (509742753535067250000, 87076559279969723000000, 70292257568869854000000, 29707742431130141000000),
   (557975111883256440000, 87076559279969723000000, 70292257568869854000000, 50000000000000000000000),
   (509742753535067250000, 87076559279969723000000, 70292257568869854000000, 70292257568869854000000),
   (373406431075116230000, 87076559279969723000000, 70292257568869854000000, 87076559279969723000000),
   (172862306434495240000, 87076559279969723000000, 70292257568869854000000, 97455395617137919000000),
   (80023734191772024000, 97455395617137919000000, 70292257568869854000000, 2544604382862075700000),
   (172862306434495260000, 97455395617137919000000, 70292257568869854000000, 12923440720030277000000),
   (235976942900098300000, 97455395617137919000000, 70292257568869854000000, 29707742431130141000000),
   (258305312245097220000, 97455395617137919000000, 70292257568869854000000, 50000000000000000000000),
   (235976942900098300000, 97455395617137919000000, 70292257568869854000000, 70292257568869854000000),
   (172862306434495260000, 97455395617137919000000, 70292257568869854000000, 87076559279969723000000),
   (80023734191772024000, 97455395617137919000000, 70292257568869854000000, 97455395617137919000000),
   (58620503731786117000, 2544604382862075700000, 87076559279969723000000, 2544604382862075700000),
   (126628375715943280000, 2544604382862075700000, 87076559279969723000000, 12923440720030277000000),
   (172862306434495260000, 2544604382862075700000, 87076559279969723000000, 29707742431130141000000),
   (189218707091536670000, 2544604382862075700000, 87076559279969723000000, 50000000000000000000000),
   (172862306434495260000, 2544604382862075700000, 87076559279969723000000, 70292257568869854000000),
   (126628375715943280000, 2544604382862075700000, 87076559279969723000000, 87076559279969723000000),
   (58620503731786117000, 2544604382862075700000, 87076559279969723000000, 97455395617137919000000),
   (126628375715943280000, 12923440720030277000000, 87076559279969723000000, 2544604382862075700000),
   (273534761997677730000, 12923440720030277000000, 87076559279969723000000, 12923440720030277000000),
   (373406431075116230000, 12923440720030277000000, 87076559279969723000000, 29707742431130141000000),
   (408738513126763110000, 12923440720030277000000, 87076559279969723000000, 50000000000000000000000),
   (373406431075116230000, 12923440720030277000000, 87076559279969723000000, 70292257568869854000000),
   (273534761997677730000, 12923440720030277000000, 87076559279969723000000, 87076559279969723000000),
   (126628375715943280000, 12923440720030277000000, 87076559279969723000000, 97455395617137919000000),
   (172862306434495240000, 29707742431130141000000, 87076559279969723000000, 2544604382862075700000),
   (373406431075116230000, 29707742431130141000000, 87076559279969723000000, 12923440720030277000000),
   (509742753535067250000, 29707742431130141000000, 87076559279969723000000, 29707742431130141000000),
   (557975111883256440000, 29707742431130141000000, 87076559279969723000000, 50000000000000000000000),
   (509742753535067250000, 29707742431130141000000, 87076559279969723000000, 70292257568869854000000),
   (373406431075116230000, 29707742431130141000000, 87076559279969723000000, 87076559279969723000000),
   (172862306434495240000, 29707742431130141000000, 87076559279969723000000, 97455395617137919000000),
   (189218707091536670000, 50000000000000000000000, 87076559279969723000000, 2544604382862075700000),
   (408738513126763200000, 50000000000000000000000, 87076559279969723000000, 12923440720030277000000),
   (557975111883256530000, 50000000000000000000000, 87076559279969723000000, 29707742431130141000000),
   (610771263195043250000, 50000000000000000000000, 87076559279969723000000, 50000000000000000000000),
   (557975111883256530000, 50000000000000000000000, 87076559279969723000000, 70292257568869854000000),
   (408738513126763200000, 50000000000000000000000, 87076559279969723000000, 87076559279969723000000),
   (189218707091536670000, 50000000000000000000000, 87076559279969723000000, 97455395617137919000000),
   (172862306434495240000, 70292257568869854000000, 87076559279969723000000, 2544604382862075700000),
   (373406431075116230000, 70292257568869854000000, 87076559279969723000000, 12923440720030277000000),
   (509742753535067250000, 70292257568869854000000, 87076559279969723000000, 29707742431130141000000),
   (557975111883256440000, 70292257568869854000000, 87076559279969723000000, 50000000000000000000000),
   (509742753535067250000, 70292257568869854000000, 87076559279969723000000, 70292257568869854000000),
   (373406431075116230000, 70292257568869854000000, 87076559279969723000000, 87076559279969723000000),
   (172862306434495240000, 70292257568869854000000, 87076559279969723000000, 97455395617137919000000),
   (126628375715943280000, 87076559279969723000000, 87076559279969723000000, 2544604382862075700000),
   (273534761997677730000, 87076559279969723000000, 87076559279969723000000, 12923440720030277000000),
   (373406431075116230000, 87076559279969723000000, 87076559279969723000000, 29707742431130141000000),
   (408738513126763110000, 87076559279969723000000, 87076559279969723000000, 50000000000000000000000),
   (373406431075116230000, 87076559279969723000000, 87076559279969723000000, 70292257568869854000000),
   (273534761997677730000, 87076559279969723000000, 87076559279969723000000, 87076559279969723000000),
   (126628375715943280000, 87076559279969723000000, 87076559279969723000000, 97455395617137919000000),
   (58620503731786117000, 97455395617137919000000, 87076559279969723000000, 2544604382862075700000),
   (126628375715943280000, 97455395617137919000000, 87076559279969723000000, 12923440720030277000000),
   (172862306434495260000, 97455395617137919000000, 87076559279969723000000, 29707742431130141000000),
   (189218707091536670000, 97455395617137919000000, 87076559279969723000000, 50000000000000000000000),
   (172862306434495260000, 97455395617137919000000, 87076559279969723000000, 70292257568869854000000),
   (126628375715943280000, 97455395617137919000000, 87076559279969723000000, 87076559279969723000000),
   (58620503731786117000, 97455395617137919000000, 87076559279969723000000, 97455395617137919000000),
   (27137388743553873000, 2544604382862075700000, 97455395617137919000000, 2544604382862075700000),
   (58620503731786117000, 2544604382862075700000, 97455395617137919000000, 12923440720030277000000),
   (80023734191772013000, 2544604382862075700000, 97455395617137919000000, 29707742431130141000000),
   (87595658259609235000, 2544604382862075700000, 97455395617137919000000, 50000000000000000000000),
   (80023734191772013000, 2544604382862075700000, 97455395617137919000000, 70292257568869854000000),
   (58620503731786117000, 2544604382862075700000, 97455395617137919000000, 87076559279969723000000),
   (27137388743553873000, 2544604382862075700000, 97455395617137919000000, 97455395617137919000000),
   (58620503731786117000, 12923440720030277000000, 97455395617137919000000, 2544604382862075700000),
   (126628375715943280000, 12923440720030277000000, 97455395617137919000000, 12923440720030277000000),
   (172862306434495260000, 12923440720030277000000, 97455395617137919000000, 29707742431130141000000),
   (189218707091536670000, 12923440720030277000000, 97455395617137919000000, 50000000000000000000000),
   (172862306434495260000, 12923440720030277000000, 97455395617137919000000, 70292257568869854000000),
   (126628375715943280000, 12923440720030277000000, 97455395617137919000000, 87076559279969723000000),
   (58620503731786117000, 12923440720030277000000, 97455395617137919000000, 97455395617137919000000),
   (80023734191772024000, 29707742431130141000000, 97455395617137919000000, 2544604382862075700000),
   (172862306434495260000, 29707742431130141000000, 97455395617137919000000, 12923440720030277000000),
   (235976942900098300000, 29707742431130141000000, 97455395617137919000000, 29707742431130141000000),
   (258305312245097220000, 29707742431130141000000, 97455395617137919000000, 50000000000000000000000),
   (235976942900098300000, 29707742431130141000000, 97455395617137919000000, 70292257568869854000000),
   (172862306434495260000, 29707742431130141000000, 97455395617137919000000, 87076559279969723000000),
   (80023734191772024000, 29707742431130141000000, 97455395617137919000000, 97455395617137919000000),
   (87595658259609246000, 50000000000000000000000, 97455395617137919000000, 2544604382862075700000),
   (189218707091536690000, 50000000000000000000000, 97455395617137919000000, 12923440720030277000000),
   (258305312245097220000, 50000000000000000000000, 97455395617137919000000, 29707742431130141000000),
   (282746413755703310000, 50000000000000000000000, 97455395617137919000000, 50000000000000000000000),
   (258305312245097220000, 50000000000000000000000, 97455395617137919000000, 70292257568869854000000),
   (189218707091536690000, 50000000000000000000000, 97455395617137919000000, 87076559279969723000000),
   (87595658259609246000, 50000000000000000000000, 97455395617137919000000, 97455395617137919000000),
   (80023734191772024000, 70292257568869854000000, 97455395617137919000000, 2544604382862075700000),
   (172862306434495260000, 70292257568869854000000, 97455395617137919000000, 12923440720030277000000),
   (235976942900098300000, 70292257568869854000000, 97455395617137919000000, 29707742431130141000000),
   (258305312245097220000, 70292257568869854000000, 97455395617137919000000, 50000000000000000000000),
   (235976942900098300000, 70292257568869854000000, 97455395617137919000000, 70292257568869854000000),
   (172862306434495260000, 70292257568869854000000, 97455395617137919000000, 87076559279969723000000),
   (80023734191772024000, 70292257568869854000000, 97455395617137919000000, 97455395617137919000000),
   (58620503731786117000, 87076559279969723000000, 97455395617137919000000, 2544604382862075700000),
   (126628375715943280000, 87076559279969723000000, 97455395617137919000000, 12923440720030277000000),
   (172862306434495260000, 87076559279969723000000, 97455395617137919000000, 29707742431130141000000),
   (189218707091536670000, 87076559279969723000000, 97455395617137919000000, 50000000000000000000000),
   (172862306434495260000, 87076559279969723000000, 97455395617137919000000, 70292257568869854000000),
   (126628375715943280000, 87076559279969723000000, 97455395617137919000000, 87076559279969723000000),
   (58620503731786117000, 87076559279969723000000, 97455395617137919000000, 97455395617137919000000),
   (27137388743553873000, 97455395617137919000000, 97455395617137919000000, 2544604382862075700000),
   (58620503731786117000, 97455395617137919000000, 97455395617137919000000, 12923440720030277000000),
   (80023734191772013000, 97455395617137919000000, 97455395617137919000000, 29707742431130141000000),
   (87595658259609235000, 97455395617137919000000, 97455395617137919000000, 50000000000000000000000),
   (80023734191772013000, 97455395617137919000000, 97455395617137919000000, 70292257568869854000000),
   (58620503731786117000, 97455395617137919000000, 97455395617137919000000, 87076559279969723000000),
   (27137388743553873000, 97455395617137919000000, 97455395617137919000000, 97455395617137919000000)]

/-- Gauss rule on the hexahedron, number of points: 512 (`GeDiM/src/Quadrature/Quadrature_Gauss3D_Hexahedron.cpp:3204-5255`). -/
def hexaTab15 : List (ℤ × ℕ × ℕ × ℕ) :=
  [(12966384167098537000, 1985507175123191200000, 1985507175123191200000, 1985507175123191200000),
   (28484832734594818000, 1985507175123191200000, 1985507175123191200000, 10166676129318664000000),
   (40182749205782331000, 1985507175123191200000, 1985507175123191200000, 23723379504183550000000),
   (46456240886174612000, 1985507175123191200000, 1985507175123191200000, 40828267875217511000000),
   (46456240886174612000, 1985507175123191200000, 1985507175123191200000, 59171732124782495000000),
   (40182749205782331000, 1985507175123191200000, 1985507175123191200000, 76276620495816450000000),
   (28484832734594818000, 1985507175123191200000, 1985507175123191200000, 89833323870681336000000),
   (12966384167098537000, 1985507175123191200000, 1985507175123191200000, 98014492824876809000000),
   (28484832734594818000, 10166676129318664000000, 1985507175123191200000, 1985507175123191200000),
   (62576095653303989000, 10166676129318664000000, 1985507175123191200000, 10166676129318664000000),
   (88274331162209213000, 10166676129318664000000, 1985507175123191200000, 23723379504183550000000),
   (102056073155577410000, 10166676129318664000000, 1985507175123191200000, 40828267875217511000000),
   (102056073155577410000, 10166676129318664000000, 1985507175123191200000, 59171732124782495000000),
   (88274331162209213000, 10166676129318664000000, 1985507175123191200000, 76276620495816450000000),
   (62576095653303989000, 10166676129318664000000, 1985507175123191200000, 89833323870681336000000),
   (28484832734594818000, 10166676129318664000000, 1985507175123191200000, 98014492824876809000000),
   (40182749205782325000, 23723379504183550000000, 1985507175123191200000, 1985507175123191200000),
   (88274331162209202000, 23723379504183550000000, 1985507175123191200000, 10166676129318664000000),
   (124526106347511420000, 23723379504183550000000, 1985507175123191200000, 23723379504183550000000),
   (143967620619271090000, 23723379504183550000000, 1985507175123191200000, 40828267875217511000000),
   (143967620619271090000, 23723379504183550000000, 1985507175123191200000, 59171732124782495000000),
   (124526106347511420000, 23723379504183550000000, 1985507175123191200000, 76276620495816450000000),
   (88274331162209202000, 23723379504183550000000, 1985507175123191200000, 89833323870681336000000),
   (40182749205782325000, 23723379504183550000000, 1985507175123191200000, 98014492824876809000000),
   (46456240886174607000, 40828267875217511000000, 1985507175123191200000, 1985507175123191200000),
   (102056073155577390000, 40828267875217511000000, 1985507175123191200000, 10166676129318664000000),
   (143967620619271090000, 40828267875217511000000, 1985507175123191200000, 23723379504183550000000),
   (166444421934570370000, 40828267875217511000000, 1985507175123191200000, 40828267875217511000000),
   (166444421934570370000, 40828267875217511000000, 1985507175123191200000, 59171732124782495000000),
   (143967620619271090000, 40828267875217511000000, 1985507175123191200000, 76276620495816450000000),
   (102056073155577390000, 40828267875217511000000, 1985507175123191200000, 89833323870681336000000),
   (46456240886174607000, 40828267875217511000000, 1985507175123191200000, 98014492824876809000000),
   (46456240886174607000, 59171732124782495000000, 1985507175123191200000, 1985507175123191200000),
   (102056073155577390000, 59171732124782495000000, 1985507175123191200000, 10166676129318664000000),
   (143967620619271090000, 59171732124782495000000, 1985507175123191200000, 23723379504183550000000),
   (166444421934570370000, 59171732124782495000000, 1985507175123191200000, 40828267875217511000000),
   (166444421934570370000, 59171732124782495000000, 1985507175123191200000, 59171732124782495000000),
   (143967620619271090000, 59171732124782495000000, 1985507175123191200000, 76276620495816450000000),
   (102056073155577390000, 59171732124782495000000, 1985507175123191200000, 89833323870681336000000),
   (46456240886174607000, 59171732124782495000000, 1985507175123191200000, 98014492824876809000000),
   (40182749205782325000, 76276620495816450000000, 1985507175123191200000, 1985507175123191200000),
   (88274331162209202000, 76276620495816450000000, 1985507175123191200000, 10166676129318664000000),
   (124526106347511420000, 76276620495816450000000, 1985507175123191200000, 23723379504183550000000),
   (143967620619271090000, 76276620495816450000000, 1985507175123191200000, 40828267875217511000000),
   (143967620619271090000, 76276620495816450000000, 1985507175123191200000, 59171732124782495000000),
   (124526106347511420000, 76276620495816450000000, 1985507175123191200000, 76276620495816450000000),
   (88274331162209202000, 76276620495816450000000, 1985507175123191200000, 89833323870681336000000),
   (40182749205782325000, 76276620495816450000000, 1985507175123191200000, 98014492824876809000000),
   (28484832734594818000, 89833323870681336000000, 1985507175123191200000, 1985507175123191200000),
   (62576095653303989000, 89833323870681336000000, 1985507175123191200000, 10166676129318664000000),
   (88274331162209213000, 89833323870681336000000, 1985507175123191200000, 23723379504183550000000),
   (102056073155577410000, 89833323870681336000000, 1985507175123191200000, 40828267875217511000000),
   (102056073155577410000, 89833323870681336000000, 1985507175123191200000, 59171732124782495000000),
   (88274331162209213000, 89833323870681336000000, 1985507175123191200000, 76276620495816450000000),
   (62576095653303989000, 89833323870681336000000, 1985507175123191200000, 89833323870681336000000),
   (28484832734594818000, 89833323870681336000000, 1985507175123191200000, 98014492824876809000000),
   (12966384167098537000, 98014492824876809000000, 1985507175123191200000, 1985507175123191200000),
   (28484832734594818000, 98014492824876809000000, 1985507175123191200000, 10166676129318664000000),
   (40182749205782331000, 98014492824876809000000, 1985507175123191200000, 23723379504183550000000),
   (46456240886174612000, 98014492824876809000000, 1985507175123191200000, 40828267875217511000000),
   (46456240886174612000, 98014492824876809000000, 1985507175123191200000, 59171732124782495000000),
   (40182749205782331000, 98014492824876809000000, 1985507175123191200000, 76276620495816450000000),
   (28484832734594818000, 98014492824876809000000, 1985507175123191200000, 89833323870681336000000),
   (12966384167098537000, 98014492824876809000000, 1985507175123191200000, 98014492824876809000000),
   (28484832734594818000, 1985507175123191200000, 10166676129318664000000, 1985507175123191200000),
   (62576095653303989000, 1985507175123191200000, 10166676129318664000000, 10166676129318664000000),
   (88274331162209213000, 1985507175123191200000, 10166676129318664000000, 23723379504183550000000),
   (102056073155577410000, 1985507175123191200000, 10166676129318664000000, 40828267875217511000000),
   (102056073155577410000, 1985507175123191200000, 10166676129318664000000, 59171732124782495000000),
   (88274331162209213000, 1985507175123191200000, 10166676129318664000000, 76276620495816450000000),
   (62576095653303989000, 1985507175123191200000, 10166676129318664000000, 89833323870681336000000),
   (28484832734594818000, 1985507175123191200000, 10166676129318664000000, 98014492824876809000000),
   (62576095653303979000, 10166676129318664000000, 10166676129318664000000, 1985507175123191200000),
   (137468518200415900000, 10166676129318664000000, 10166676129318664000000, 10166676129318664000000),
   (193922956894498700000, 10166676129318664000000, 10166676129318664000000, 23723379504183550000000),
   (224198985308692990000, 10166676129318664000000, 10166676129318664000000, 40828267875217511000000),
   (224198985308692990000, 10166676129318664000000, 10166676129318664000000, 59171732124782495000000),
   (193922956894498700000, 10166676129318664000000, 10166676129318664000000, 76276620495816450000000),
   (137468518200415900000, 10166676129318664000000, 10166676129318664000000, 89833323870681336000000),
   (62576095653303979000, 10166676129318664000000, 10166676129318664000000, 98014492824876809000000),
   (88274331162209202000, 23723379504183550000000, 10166676129318664000000, 1985507175123191200000),
   (193922956894498700000, 23723379504183550000000, 10166676129318664000000, 10166676129318664000000),
   (273561639442999620000, 23723379504183550000000, 10166676129318664000000, 23723379504183550000000),
   (316271177815579880000, 23723379504183550000000, 10166676129318664000000, 40828267875217511000000),
   (316271177815579880000, 23723379504183550000000, 10166676129318664000000, 59171732124782495000000),
   (273561639442999620000, 23723379504183550000000, 10166676129318664000000, 76276620495816450000000),
   (193922956894498700000, 23723379504183550000000, 10166676129318664000000, 89833323870681336000000),
   (88274331162209202000, 23723379504183550000000, 10166676129318664000000, 98014492824876809000000),
   (102056073155577390000, 40828267875217511000000, 10166676129318664000000, 1985507175123191200000),
   (224198985308692990000, 40828267875217511000000, 10166676129318664000000, 10166676129318664000000),
   (316271177815579930000, 40828267875217511000000, 10166676129318664000000, 23723379504183550000000),
   (365648700309446300000, 40828267875217511000000, 10166676129318664000000, 40828267875217511000000),
   (365648700309446300000, 40828267875217511000000, 10166676129318664000000, 59171732124782495000000),
   (316271177815579930000, 40828267875217511000000, 10166676129318664000000, 76276620495816450000000),
   (224198985308692990000, 40828267875217511000000, 10166676129318664000000, 89833323870681336000000),
   (102056073155577390000, 40828267875217511000000, 10166676129318664000000, 98014492824876809000000),
   (102056073155577390000, 59171732124782495000000, 10166676129318664000000, 1985507175123191200000),
   (224198985308692990000, 59171732124782495000000, 10166676129318664000000, 10166676129318664000000),
   (316271177815579930000, 59171732124782495000000, 10166676129318664000000, 23723379504183550000000),
   (365648700309446300000, 59171732124782495000000, 10166676129318664000000, 40828267875217511000000),
   (365648700309446300000, 59171732124782495000000, 10166676129318664000000, 59171732124782495000000),
   (316271177815579930000, 59171732124782495000000, 10166676129318664000000, 76276620495816450000000),
   (224198985308692990000, 59171732124782495000000, 10166676129318664000000, 89833323870681336000000),
   (102056073155577390000, 59171732124782495000000, 10166676129318664000000, 98014492824876809000000),
   (88274331162209202000, 76276620495816450000000, 10166676129318664000000, 1985507175123191200000),
   (193922956894498700000, 76276620495816450000000, 10166676129318664000000, 10166676129318664000000),
   (273561639442999620000, 76276620495816450000000, 10166676129318664000000, 23723379504183550000000),
   (316271177815579880000, 76276620495816450000000, 10166676129318664000000, 40828267875217511000000),
   (316271177815579880000, 76276620495816450000000, 10166676129318664000000, 59171732124782495000000),
   (273561639442999620000, 76276620495816450000000, 10166676129318664000000, 76276620495816450000000),
   (193922956894498700000, 76276620495816450000000, 10166676129318664000000, 89833323870681336000000),
   (88274331162209202000, 76276620495816450000000, 10166676129318664000000, 98014492824876809000000),
   (62576095653303979000, 89833323870681336000000, 10166676129318664000000, 1985507175123191200000),
   (137468518200415900000, 89833323870681336000000, 10166676129318664000000, 10166676129318664000000),
   (193922956894498700000, 89833323870681336000000, 10166676129318664000000, 23723379504183550000000),
   (224198985308692990000, 89833323870681336000000, 10166676129318664000000, 40828267875217511000000),
   (224198985308692990000, 89833323870681336000000, 10166676129318664000000, 59171732124782495000000),
   (193922956894498700000, 89833323870681336000000, 10166676129318664000000, 76276620495816450000000),
   (137468518200415900000, 89833323870681336000000, 10166676129318664000000, 89833323870681336000000),
   (62576095653303979000, 89833323870681336000000, 10166676129318664000000, 98014492824876809000000),
   (28484832734594818000, 98014492824876809000000, 10166676129318664000000, 1985507175123191200000),
   (62576095653303989000, 98014492824876809000000, 10166676129318664000000, 10166676129318664000000),
   (88274331162209213000, 98014492824876809000000, 10166676129318664000000, 23723379504183550000000),
   (102056073155577410000, 98014492824876809000000, 10166676129318664000000, 40828267875217511000000),
   (102056073155577410000, 98014492824876809000000, 10166676129318664000000, 59171732124782495000000),
   (88274331162209213000, 98014492824876809000000, 10166676129318664000000, 76276620495816450000000),
   (62576095653303989000, 98014492824876809000000, 10166676129318664000000, 89833323870681336000000),
   (28484832734594818000, 98014492824876809000000, 10166676129318664000000, 98014492824876809000000),
   (40182749205782325000, 1985507175123191200000, 23723379504183550000000, 1985507175123191200000),
   (88274331162209202000, 1985507175123191200000, 23723379504183550000000, 10166676129318664000000),
   (124526106347511420000, 1985507175123191200000, 23723379504183550000000, 23723379504183550000000),
   (143967620619271090000, 1985507175123191200000, 23723379504183550000000, 40828267875217511000000),
   (143967620619271090000, 1985507175123191200000, 23723379504183550000000, 59171732124782495000000),
   (124526106347511420000, 1985507175123191200000, 23723379504183550000000, 76276620495816450000000),
   (88274331162209202000, 1985507175123191200000, 23723379504183550000000, 89833323870681336000000),
   (40182749205782325000, 1985507175123191200000, 23723379504183550000000, 98014492824876809000000),
   (88274331162209202000, 10166676129318664000000, 23723379504183550000000, 1985507175123191200000),
   (193922956894498700000, 10166676129318664000000, 23723379504183550000000, 10166676129318664000000),
   (273561639442999620000, 10166676129318664000000, 23723379504183550000000, 23723379504183550000000),
   (316271177815579880000, 10166676129318664000000, 23723379504183550000000, 40828267875217511000000),
   (316271177815579880000, 10166676129318664000000, 23723379504183550000000, 59171732124782495000000),
   (273561639442999620000, 10166676129318664000000, 23723379504183550000000, 76276620495816450000000),
   (193922956894498700000, 10166676129318664000000, 23723379504183550000000, 89833323870681336000000),
   (88274331162209202000, 10166676129318664000000, 23723379504183550000000, 98014492824876809000000),
   (124526106347511440000, 23723379504183550000000, 23723379504183550000000, 1985507175123191200000),
   (273561639442999620000, 23723379504183550000000, 23723379504183550000000, 10166676129318664000000),
   (385905680137990430000, 23723379504183550000000, 23723379504183550000000, 23723379504183550000000),
   (446154819920925590000, 23723379504183550000000, 23723379504183550000000, 40828267875217511000000),
   (446154819920925590000, 23723379504183550000000, 23723379504183550000000, 59171732124782495000000),
   (385905680137990430000, 23723379504183550000000, 23723379504183550000000, 76276620495816450000000),
   (273561639442999620000, 23723379504183550000000, 23723379504183550000000, 89833323870681336000000),
   (124526106347511440000, 23723379504183550000000, 23723379504183550000000, 98014492824876809000000),
   (143967620619271090000, 40828267875217511000000, 23723379504183550000000, 1985507175123191200000),
   (316271177815579880000, 40828267875217511000000, 23723379504183550000000, 10166676129318664000000),
   (446154819920925590000, 40828267875217511000000, 23723379504183550000000, 23723379504183550000000),
   (515810296618325610000, 40828267875217511000000, 23723379504183550000000, 40828267875217511000000),
   (515810296618325610000, 40828267875217511000000, 23723379504183550000000, 59171732124782495000000),
   (446154819920925590000, 40828267875217511000000, 23723379504183550000000, 76276620495816450000000),
   (316271177815579880000, 40828267875217511000000, 23723379504183550000000, 89833323870681336000000),
   (143967620619271090000, 40828267875217511000000, 23723379504183550000000, 98014492824876809000000),
   (143967620619271090000, 59171732124782495000000, 23723379504183550000000, 1985507175123191200000),
   (316271177815579880000, 59171732124782495000000, 23723379504183550000000, 10166676129318664000000),
   (446154819920925590000, 59171732124782495000000, 23723379504183550000000, 23723379504183550000000),
   (515810296618325610000, 59171732124782495000000, 23723379504183550000000, 40828267875217511000000),
   (515810296618325610000, 59171732124782495000000, 23723379504183550000000, 59171732124782495000000),
   (446154819920925590000, 59171732124782495000000, 23723379504183550000000, 76276620495816450000000),
   (316271177815579880000, 59171732124782495000000, 23723379504183550000000, 89833323870681336000000),
   (143967620619271090000, 59171732124782495000000, 23723379504183550000000, 98014492824876809000000),
   (124526106347511440000, 76276620495816450000000, 23723379504183550000000, 1985507175123191200000),
   (273561639442999620000, 76276620495816450000000, 23723379504183550000000, 10166676129318664000000),
   (385905680137990430000, 76276620495816450000000, 23723379504183550000000, 23723379504183550000000),
   (446154819920925590000, 76276620495816450000000, 23723379504183550000000, 40828267875217511000000),
   (446154819920925590000, 76276620495816450000000, 23723379504183550000000, 59171732124782495000000),
   (385905680137990430000, 76276620495816450000000, 23723379504183550000000, 76276620495816450000000),
   (273561639442999620000, 76276620495816450000000, 23723379504183550000000, 89833323870681336000000),
   (124526106347511440000, 76276620495816450000000, 23723379504183550000000, 98014492824876809000000),
   (88274331162209202000, 89833323870681336000000, 23723379504183550000000, 1985507175123191200000),
   (193922956894498700000, 89833323870681336000000, 23723379504183550000000, 10166676129318664000000),
   (273561639442999620000, 89833323870681336000000, 23723379504183550000000, 23723379504183550000000),
   (316271177815579880000, 89833323870681336000000, 23723379504183550000000, 40828267875217511000000),
   (316271177815579880000, 89833323870681336000000, 23723379504183550000000, 59171732124782495000000),
   (273561639442999620000, 89833323870681336000000, 23723379504183550000000, 76276620495816450000000),
   (193922956894498700000, 89833323870681336000000, 23723379504183550000000, 89833323870681336000000),
   (88274331162209202000, 89833323870681336000000, 23723379504183550000000, 98014492824876809000000),
   (40182749205782325000, 98014492824876809000000, 23723379504183550000000, 1985507175123191200000),
   (88274331162209202000, 98014492824876809000000, 23723379504183550000000, 10166676129318664000000),
   (124526106347511420000, 98014492824876809000000, 23723379504183550000000, 23723379504183550000000),
   (143967620619271090000, 98014492824876809000000, 23723379504183550000000, 40828267875217511000000),
   (143967620619271090000, 98014492824876809000000, 23723379504183550000000, 59171732124782495000000),
   (124526106347511420000, 98014492824876809000000, 23723379504183550000000, 76276620495816450000000),
   (88274331162209202000, 98014492824876809000000, 23723379504183550000000, 89833323870681336000000),
   (40182749205782325000, 98014492824876809000000, 23723379504183550000000, 98014492824876809000000),
   (46456240886174607000, 1985507175123191200000, 40828267875217511000000, 1985507175123191200000),
   (102056073155577390000, 1985507175123191200000, 40828267875217511000000, 10166676129318664000000),
   (143967620619271090000, 1985507175123191200000, 40828267875217511000000, 23723379504183550000000),
   (166444421934570370000, 1985507175123191200000, 40828267875217511000000, 40828267875217511000000),
   (166444421934570370000, 1985507175123191200000, 40828267875217511000000, 59171732124782495000000),
   (143967620619271090000, 1985507175123191200000, 40828267875217511000000, 76276620495816450000000),
   (102056073155577390000, 1985507175123191200000, 40828267875217511000000, 89833323870681336000000),
   (46456240886174607000, 1985507175123191200000, 40828267875217511000000, 98014492824876809000000),
   (102056073155577390000, 10166676129318664000000, 40828267875217511000000, 1985507175123191200000),
   (224198985308692990000, 10166676129318664000000, 40828267875217511000000, 10166676129318664000000),
   (316271177815579930000, 10166676129318664000000, 40828267875217511000000, 23723379504183550000000),
   (365648700309446300000, 10166676129318664000000, 40828267875217511000000, 40828267875217511000000),
   (365648700309446300000, 10166676129318664000000, 40828267875217511000000, 59171732124782495000000),
   (316271177815579930000, 10166676129318664000000, 40828267875217511000000, 76276620495816450000000),
   (224198985308692990000, 10166676129318664000000, 40828267875217511000000, 89833323870681336000000),
   (102056073155577390000, 10166676129318664000000, 40828267875217511000000, 98014492824876809000000),
   (143967620619271090000, 23723379504183550000000, 40828267875217511000000, 1985507175123191200000),
   (316271177815579880000, 23723379504183550000000, 40828267875217511000000, 10166676129318664000000),
   (446154819920925590000, 23723379504183550000000, 40828267875217511000000, 23723379504183550000000),
   (515810296618325610000, 23723379504183550000000, 40828267875217511000000, 40828267875217511000000),
   (515810296618325610000, 23723379504183550000000, 40828267875217511000000, 59171732124782495000000),
   (446154819920925590000, 23723379504183550000000, 40828267875217511000000, 76276620495816450000000),
   (316271177815579880000, 23723379504183550000000, 40828267875217511000000, 89833323870681336000000),
   (143967620619271090000, 23723379504183550000000, 40828267875217511000000, 98014492824876809000000),
   (166444421934570370000, 40828267875217511000000, 40828267875217511000000, 1985507175123191200000),
   (365648700309446210000, 40828267875217511000000, 40828267875217511000000, 10166676129318664000000),
   (515810296618325610000, 40828267875217511000000, 40828267875217511000000, 23723379504183550000000),
   (596340665208190160000, 40828267875217511000000, 40828267875217511000000, 40828267875217511000000),
   (596340665208190160000, 40828267875217511000000, 40828267875217511000000, 59171732124782495000000),
   (515810296618325610000, 40828267875217511000000, 40828267875217511000000, 76276620495816450000000),
   (365648700309446210000, 40828267875217511000000, 40828267875217511000000, 89833323870681336000000),
   (166444421934570370000, 40828267875217511000000, 40828267875217511000000, 98014492824876809000000),
   (166444421934570370000, 59171732124782495000000, 40828267875217511000000, 1985507175123191200000),
   (365648700309446210000, 59171732124782495000000, 40828267875217511000000, 10166676129318664000000),
   (515810296618325610000, 59171732124782495000000, 40828267875217511000000, 23723379504183550000000),
   (596340665208190160000, 59171732124782495000000, 40828267875217511000000, 40828267875217511000000),
   (596340665208190160000, 59171732124782495000000, 40828267875217511000000, 59171732124782495000000),
   (515810296618325610000, 59171732124782495000000, 40828267875217511000000, 76276620495816450000000),
   (365648700309446210000, 59171732124782495000000, 40828267875217511000000, 89833323870681336000000),
   (166444421934570370000, 59171732124782495000000, 40828267875217511000000, 98014492824876809000000),
   (143967620619271090000, 76276620495816450000000, 40828267875217511000000, 1985507175123191200000),
   (316271177815579880000, 76276620495816450000000, 40828267875217511000000, 10166676129318664000000),
   (446154819920925590000, 76276620495816450000000, 40828267875217511000000, 23723379504183550000000),
   (515810296618325610000, 76276620495816450000000, 40828267875217511000000, 40828267875217511000000),
   (515810296618325610000, 76276620495816450000000, 40828267875217511000000, 59171732124782495000000),
   (446154819920925590000, 76276620495816450000000, 40828267875217511000000, 76276620495816450000000),
   (316271177815579880000, 76276620495816450000000, 40828267875217511000000, 89833323870681336000000),
   (143967620619271090000, 76276620495816450000000, 40828267875217511000000, 98014492824876809000000),
   (102056073155577390000, 89833323870681336000000, 40828267875217511000000, 1985507175123191200000),
   (224198985308692990000, 89833323870681336000000, 40828267875217511000000, 10166676129318664000000),
   (316271177815579930000, 89833323870681336000000, 40828267875217511000000, 23723379504183550000000),
   (365648700309446300000, 89833323870681336000000, 40828267875217511000000, 40828267875217511000000),
   (365648700309446300000, 89833323870681336000000, 40828267875217511000000, 59171732124782495000000),
   (316271177815579930000, 89833323870681336000000, 40828267875217511000000, 76276620495816450000000),
   (224198985308692990000, 89833323870681336000000, 40828267875217511000000, 89833323870681336000000),
   (102056073155577390000, 89833323870681336000000, 40828267875217511000000, 98014492824876809000000),
   (46456240886174607000, 98014492824876809000000, 40828267875217511000000, 1985507175123191200000),
   (102056073155577390000, 98014492824876809000000, 40828267875217511000000, 10166676129318664000000),
   (143967620619271090000, 98014492824876809000000, 40828267875217511000000, 23723379504183550000000),
   (166444421934570370000, 98014492824876809000000, 40828267875217511000000, 40828267875217511000000),
   (166444421934570370000, 98014492824876809000000, 40828267875217511000000, 59171732124782495000000),
   (143967620619271090000, 98014492824876809000000, 40828267875217511000000, 76276620495816450000000),
   (102056073155577390000, 98014492824876809000000, 40828267875217511000000, 89833323870681336000000),
   (46456240886174607000, 98014492824876809000000, 40828267875217511000000, 98014492824876809000000),
   (46456240886174607000, 1985507175123191200000, 59171732124782495000000, 1985507175123191200000),
   (102056073155577390000, 1985507175123191200000, 59171732124782495000000, 10166676129318664000000),
   (143967620619271090000, 1985507175123191200000, 59171732124782495000000, 23723379504183550000000),
   (166444421934570370000, 1985507175123191200000, 59171732124782495000000, 40828267875217511000000),
   (166444421934570370000, 1985507175123191200000, 59171732124782495000000, 59171732124782495000000),
   (143967620619271090000, 1985507175123191200000, 59171732124782495000000, 76276620495816450000000),
   (102056073155577390000, 1985507175123191200000, 59171732124782495000000, 89833323870681336000000),
   (46456240886174607000, 1985507175123191200000, 59171732124782495000000, 98014492824876809000000),
   (102056073155577390000, 10166676129318664000000, 59171732124782495000000, 1985507175123191200000),
   (224198985308692990000, 10166676129318664000000, 59171732124782495000000, 10166676129318664000000),
   (316271177815579930000, 10166676129318664000000, 59171732124782495000000, 23723379504183550000000),
   (365648700309446300000, 10166676129318664000000, 59171732124782495000000, 40828267875217511000000),
   (365648700309446300000, 10166676129318664000000, 59171732124782495000000, 59171732124782495000000),
   (316271177815579930000, 10166676129318664000000, 59171732124782495000000, 76276620495816450000000),
   (224198985308692990000, 10166676129318664000000, 59171732124782495000000, 89833323870681336000000),
   (102056073155577390000, 10166676129318664000000, 59171732124782495000000, 98014492824876809000000),
   (143967620619271090000, 23723379504183550000000, 59171732124782495000000, 1985507175123191200000),
   (316271177815579880000, 23723379504183550000000, 59171732124782495000000, 10166676129318664000000),
   (446154819920925590000, 23723379504183550000000, 59171732124782495000000, 23723379504183550000000),
   (515810296618325610000, 23723379504183550000000, 59171732124782495000000, 40828267875217511000000),
   (515810296618325610000, 23723379504183550000000, 59171732124782495000000, 59171732124782495000000),
   (446154819920925590000, 23723379504183550000000, 59171732124782495000000, 76276620495816450000000),
   (316271177815579880000, 23723379504183550000000, 59171732124782495000000, 89833323870681336000000),
   (143967620619271090000, 23723379504183550000000, 59171732124782495000000, 98014492824876809000000),
   (166444421934570370000, 40828267875217511000000, 59171732124782495000000, 1985507175123191200000),
   (365648700309446210000, 40828267875217511000000, 59171732124782495000000, 10166676129318664000000),
   (515810296618325610000, 40828267875217511000000, 59171732124782495000000, 23723379504183550000000),
   (596340665208190160000, 40828267875217511000000, 59171732124782495000000, 40828267875217511000000),
   (596340665208190160000, 40828267875217511000000, 59171732124782495000000, 59171732124782495000000),
   (515810296618325610000, 40828267875217511000000, 59171732124782495000000, 76276620495816450000000),
   (365648700309446210000, 40828267875217511000000, 59171732124782495000000, 89833323870681336000000),
   (166444421934570370000, 40828267875217511000000, 59171732124782495000000, 98014492824876809000000),
   (166444421934570370000, 59171732124782495000000, 59171732124782495000000, 1985507175123191200000),
   (365648700309446210000, 59171732124782495000000, 59171732124782495000000, 10166676129318664000000),
   (515810296618325610000, 59171732124782495000000, 59171732124782495000000, 23723379504183550000000),
   (596340665208190160000, 59171732124782495000000, 59171732124782495000000, 40828267875217511000000),
   (596340665208190160000, 59171732124782495000000, 59171732124782495000000, 59171732124782495000000),
   (515810296618325610000, 59171732124782495000000, 59171732124782495000000, 76276620495816450000000),
   (365648700309446210000, 59171732124782495000000, 59171732124782495000000, 89833323870681336000000),
   (166444421934570370000, 59171732124782495000000, 59171732124782495000000, 98014492824876809000000),
   (143967620619271090000, 76276620495816450000000, 59171732124782495000000, 1985507175123191200000),
   (316271177815579880000, 76276620495816450000000, 59171732124782495000000, 10166676129318664000000),
   (446154819920925590000, 76276620495816450000000, 59171732124782495000000, 23723379504183550000000),
   (515810296618325610000, 76276620495816450000000, 59171732124782495000000, 40828267875217511000000),
   (515810296618325610000, 76276620495816450000000, 59171732124782495000000, 59171732124782495000000),
   (446154819920925590000, 76276620495816450000000, 59171732124782495000000, 76276620495816450000000),
   (316271177815579880000, 76276620495816450000000, 59171732124782495000000, 89833323870681336000000),
   (143967620619271090000, 76276620495816450000000, 59171732124782495000000, 98014492824876809000000),
   (102056073155577390000, 89833323870681336000000, 59171732124782495000000, 1985507175123191200000),
   (224198985308692990000, 89833323870681336000000, 59171732124782495000000, 10166676129318664000000),
   (316271177815579930000, 89833323870681336000000, 59171732124782495000000, 23723379504183550000000),
   (365648700309446300000, 89833323870681336000000, 59171732124782495000000, 40828267875217511000000),
   (365648700309446300000, 89833323870681336000000, 59171732124782495000000, 59171732124782495000000),
   (316271177815579930000, 89833323870681336000000, 59171732124782495000000, 76276620495816450000000),
   (224198985308692990000, 89833323870681336000000, 59171732124782495000000, 89833323870681336000000),
   (102056073155577390000, 89833323870681336000000, 59171732124782495000000, 98014492824876809000000),
   (46456240886174607000, 98014492824876809000000, 59171732124782495000000, 1985507175123191200000),
   (102056073155577390000, 98014492824876809000000, 59171732124782495000000, 10166676129318664000000),
   (143967620619271090000, 98014492824876809000000, 59171732124782495000000, 23723379504183550000000),
   (166444421934570370000, 98014492824876809000000, 59171732124782495000000, 40828267875217511000000),
   (166444421934570370000, 98014492824876809000000, 59171732124782495000000, 59171732124782495000000),
   (143967620619271090000, 98014492824876809000000, 59171732124782495000000, 76276620495816450000000),
   (102056073155577390000, 98014492824876809000000, 59171732124782495000000, 89833323870681336000000),
   (46456240886174607000, 98014492824876809000000, 59171732124782495000000, 98014492824876809000000),
   (40182749205782325000, 1985507175123191200000, 76276620495816450000000, 1985507175123191200000),
   (88274331162209202000, 1985507175123191200000, 76276620495816450000000, 10166676129318664000000),
   (124526106347511420000, 1985507175123191200000, 76276620495816450000000, 23723379504183550000000),
   (143967620619271090000, 1985507175123191200000, 76276620495816450000000, 40828267875217511000000),
   (143967620619271090000, 1985507175123191200000, 76276620495816450000000, 59171732124782495000000),
   (124526106347511420000, 1985507175123191200000, 76276620495816450000000, 76276620495816450000000),
   (88274331162209202000, 1985507175123191200000, 76276620495816450000000, 89833323870681336000000),
   (40182749205782325000, 1985507175123191200000, 76276620495816450000000, 98014492824876809000000),
   (88274331162209202000, 10166676129318664000000, 76276620495816450000000, 1985507175123191200000),
   (193922956894498700000, 10166676129318664000000, 76276620495816450000000, 10166676129318664000000),
   (273561639442999620000, 10166676129318664000000, 76276620495816450000000, 23723379504183550000000),
   (316271177815579880000, 10166676129318664000000, 76276620495816450000000, 40828267875217511000000),
   (316271177815579880000, 10166676129318664000000, 76276620495816450000000, 59171732124782495000000),
   (273561639442999620000, 10166676129318664000000, 76276620495816450000000, 76276620495816450000000),
   (193922956894498700000, 10166676129318664000000, 76276620495816450000000, 89833323870681336000000),
   (88274331162209202000, 10166676129318664000000, 76276620495816450000000, 98014492824876809000000),
   (124526106347511440000, 23723379504183550000000, 76276620495816450000000, 1985507175123191200000),
   (273561639442999620000, 23723379504183550000000, 76276620495816450000000, 10166676129318664000000),
   (385905680137990430000, 23723379504183550000000, 76276620495816450000000, 23723379504183550000000),
   (446154819920925590000, 23723379504183550000000, 76276620495816450000000, 40828267875217511000000),
   (446154819920925590000, 23723379504183550000000, 76276620495816450000000, 59171732124782495000000),
   (385905680137990430000, 23723379504183550000000, 76276620495816450000000, 76276620495816450000000),
   (273561639442999620000, 23723379504183550000000, 76276620495816450000000, 89833323870681336000000),
   (124526106347511440000, 23723379504183550000000, 76276620495816450000000, 98014492824876809000000),
   (143967620619271090000, 40828267875217511000000, 76276620495816450000000, 1985507175123191200000),
   (316271177815579880000, 40828267875217511000000, 76276620495816450000000, 10166676129318664000000),
   (446154819920925590000, 40828267875217511000000, 76276620495816450000000, 23723379504183550000000),
   (515810296618325610000, 40828267875217511000000, 76276620495816450000000, 40828267875217511000000),
   (515810296618325610000, 40828267875217511000000, 76276620495816450000000, 59171732124782495000000),
   (446154819920925590000, 40828267875217511000000, 76276620495816450000000, 76276620495816450000000),
   (316271177815579880000, 40828267875217511000000, 76276620495816450000000, 89833323870681336000000),
   (143967620619271090000, 40828267875217511000000, 76276620495816450000000, 98014492824876809000000),
   (143967620619271090000, 59171732124782495000000, 76276620495816450000000, 1985507175123191200000),
   (316271177815579880000, 59171732124782495000000, 76276620495816450000000, 10166676129318664000000),
   (446154819920925590000, 59171732124782495000000, 76276620495816450000000, 23723379504183550000000),
   (515810296618325610000, 59171732124782495000000, 76276620495816450000000, 40828267875217511000000),
   (515810296618325610000, 59171732124782495000000, 76276620495816450000000, 59171732124782495000000),
   (446154819920925590000, 59171732124782495000000, 76276620495816450000000, 76276620495816450000000),
   (316271177815579880000, 59171732124782495000000, 76276620495816450000000, 89833323870681336000000),
   (143967620619271090000, 59171732124782495000000, 76276620495816450000000, 98014492824876809000000),
   (124526106347511440000, 76276620495816450000000, 76276620495816450000000, 1985507175123191200000),
   (273561639442999620000, 76276620495816450000000, 76276620495816450000000, 10166676129318664000000),
   (385905680137990430000, 76276620495816450000000, 76276620495816450000000, 23723379504183550000000),
   (446154819920925590000, 76276620495816450000000, 76276620495816450000000, 40828267875217511000000),
   (446154819920925590000, 76276620495816450000000, 76276620495816450000000, 59171732124782495000000),
   (385905680137990430000, 76276620495816450000000, 76276620495816450000000, 76276620495816450000000),
   (273561639442999620000, 76276620495816450000000, 76276620495816450000000, 89833323870681336000000),
   (124526106347511440000, 76276620495816450000000, 76276620495816450000000, 98014492824876809000000),
   (88274331162209202000, 89833323870681336000000, 76276620495816450000000, 1985507175123191200000),
   (193922956894498700000, 89833323870681336000000, 76276620495816450000000, 10166676129318664000000),
   (273561639442999620000, 89833323870681336000000, 76276620495816450000000, 23723379504183550000000),
   (316271177815579880000, 89833323870681336000000, 76276620495816450000000, 40828267875217511000000),
   (316271177815579880000, 89833323870681336000000, 76276620495816450000000, 59171732124782495000000),
   (273561639442999620000, 89833323870681336000000, 76276620495816450000000, 76276620495816450000000),
   (193922956894498700000, 89833323870681336000000, 76276620495816450000000, 89833323870681336000000),
   (88274331162209202000, 89833323870681336000000, 76276620495816450000000, 98014492824876809000000),
   (40182749205782325000, 98014492824876809000000, 76276620495816450000000, 1985507175123191200000),
   (88274331162209202000, 98014492824876809000000, 76276620495816450000000, 10166676129318664000000),
   (124526106347511420000, 98014492824876809000000, 76276620495816450000000, 23723379504183550000000),
   (143967620619271090000, 98014492824876809000000, 76276620495816450000000, 40828267875217511000000),
   (143967620619271090000, 98014492824876809000000, 76276620495816450000000, 59171732124782495000000),
   (124526106347511420000, 98014492824876809000000, 76276620495816450000000, 76276620495816450000000),
   (88274331162209202000, 98014492824876809000000, 76276620495816450000000, 89833323870681336000000),
   (40182749205782325000, 98014492824876809000000, 76276620495816450000000, 98014492824876809000000),
   (28484832734594818000, 1985507175123191200000, 89833323870681336000000, 1985507175123191200000),
   (62576095653303989000, 1985507175123191200000, 89833323870681336000000, 10166676129318664000000),
   (88274331162209213000, 1985507175123191200000, 89833323870681336000000, 23723379504183550000000),
   (102056073155577410000, 1985507175123191200000, 89833323870681336000000, 40828267875217511000000),
   (102056073155577410000, 1985507175123191200000, 89833323870681336000000, 59171732124782495000000),
   (88274331162209213000, 1985507175123191200000, 89833323870681336000000, 76276620495816450000000),
   (62576095653303989000, 1985507175123191200000, 89833323870681336000000, 89833323870681336000000),
   (28484832734594818000, 1985507175123191200000, 89833323870681336000000, 98014492824876809000000),
   (62576095653303979000, 10166676129318664000000, 89833323870681336000000, 1985507175123191200000),
   (137468518200415900000, 10166676129318664000000, 89833323870681336000000, 10166676129318664000000),
   (193922956894498700000, 10166676129318664000000, 89833323870681336000000, 23723379504183550000000),
   (224198985308692990000, 10166676129318664000000, 89833323870681336000000, 40828267875217511000000),
   (224198985308692990000, 10166676129318664000000, 89833323870681336000000, 59171732124782495000000),
   (193922956894498700000, 10166676129318664000000, 89833323870681336000000, 76276620495816450000000),
   (137468518200415900000, 10166676129318664000000, 89833323870681336000000, 89833323870681336000000),
   (62576095653303979000, 10166676129318664000000, 89833323870681336000000, 98014492824876809000000),
   (88274331162209202000, 23723379504183550000000, 89833323870681336000000, 1985507175123191200000),
   (193922956894498700000, 23723379504183550000000, 89833323870681336000000, 10166676129318664000000),
   (273561639442999620000, 23723379504183550000000, 89833323870681336000000, 23723379504183550000000),
   (316271177815579880000, 23723379504183550000000, 89833323870681336000000, 40828267875217511000000),
   (316271177815579880000, 23723379504183550000000, 89833323870681336000000, 59171732124782495000000),
   (273561639442999620000, 23723379504183550000000, 89833323870681336000000, 76276620495816450000000),
   (193922956894498700000, 23723379504183550000000, 89833323870681336000000, 89833323870681336000000),
   (88274331162209202000, 23723379504183550000000, 89833323870681336000000, 98014492824876809000000),
   (102056073155577390000, 40828267875217511000000, 89833323870681336000000, 1985507175123191200000),
   (224198985308692990000, 40828267875217511000000, 89833323870681336000000, 10166676129318664000000),
   (316271177815579930000, 40828267875217511000000, 89833323870681336000000, 23723379504183550000000),
   (365648700309446300000, 40828267875217511000000, 89833323870681336000000, 40828267875217511000000),
   (365648700309446300000, 40828267875217511000000, 89833323870681336000000, 59171732124782495000000),
   (316271177815579930000, 40828267875217511000000, 89833323870681336000000, 76276620495816450000000),
   (224198985308692990000, 40828267875217511000000, 89833323870681336000000, 89833323870681336000000),
   (102056073155577390000, 40828267875217511000000, 89833323870681336000000, 98014492824876809000000),
   (102056073155577390000, 59171732124782495000000, 89833323870681336000000, 1985507175123191200000),
   (224198985308692990000, 59171732124782495000000, 89833323870681336000000, 10166676129318664000000),
   (316271177815579930000, 59171732124782495000000, 89833323870681336000000, 23723379504183550000000),
   (365648700309446300000, 59171732124782495000000, 89833323870681336000000, 40828267875217511000000),
   (365648700309446300000, 59171732124782495000000, 89833323870681336000000, 59171732124782495000000),
   (316271177815579930000, 59171732124782495000000, 89833323870681336000000, 76276620495816450000000),
   (224198985308692990000, 59171732124782495000000, 89833323870681336000000, 89833323870681336000000),
   (102056073155577390000, 59171732124782495000000, 89833323870681336000000, 98014492824876809000000),
   (88274331162209202000, 76276620495816450000000, 89833323870681336000000, 1985507175123191200000),
   (193922956894498700000, 76276620495816450000000, 89833323870681336000000, 10166676129318664000000),
   (273561639442999620000, 76276620495816450000000, 89833323870681336000000, 23723379504183550000000),
   (316271177815579880000, 76276620495816450000000, 89833323870681336000000, 40828267875217511000000),
   (316271177815579880000, 76276620495816450000000, 89833323870681336000000, 59171732124782495000000),
   (273561639442999620000, 76276620495816450000000, 89833323870681336000000, 76276620495816450000000),
   (193922956894498700000, 76276620495816450000000, 89833323870681336000000, 89833323870681336000000),
   (88274331162209202000, 76276620495816450000000, 89833323870681336000000, 98014492824876809000000),
   (62576095653303979000, 89833323870681336000000, 89833323870681336000000, 1985507175123191200000),
   (137468518200415900000, 89833323870681336000000, 89833323870681336000000, 10166676129318664000000),
   (193922956894498700000, 89833323870681336000000, 89833323870681336000000, 23723379504183550000000),
   (224198985308692990000, 89833323870681336000000, 89833323870681336000000, 40828267875217511000000),
   (224198985308692990000, 89833323870681336000000, 89833323870681336000000, 59171732124782495000000),
   (193922956894498700000, 89833323870681336000000, 89833323870681336000000, 76276620495816450000000),
   (137468518200415900000, 89833323870681336000000, 89833323870681336000000, 89833323870681336000000),
   (62576095653303979000, 89833323870681336000000, 89833323870681336000000, 98014492824876809000000),
   (28484832734594818000, 98014492824876809000000, 89833323870681336000000, 1985507175123191200000),
   (62576095653303989000, 98014492824876809000000, 89833323870681336000000, 10166676129318664000000),
   (88274331162209213000, 98014492824876809000000, 89833323870681336000000, 23723379504183550000000),
   (102056073155577410000, 98014492824876809000000, 89833323870681336000000, 40828267875217511000000),
   (102056073155577410000, 98014492824876809000000, 89833323870681336000000, 59171732124782495000000),
   (88274331162209213000, 98014492824876809000000, 89833323870681336000000, 76276620495816450000000),
   (62576095653303989000, 98014492824876809000000, 89833323870681336000000, 89833323870681336000000),
   (28484832734594818000, 98014492824876809000000, 89833323870681336000000, 98014492824876809000000),
   (12966384167098537000, 1985507175123191200000, 98014492824876809000000, 1985507175123191200000),
   (28484832734594818000, 1985507175123191200000, 98014492824876809000000, 10166676129318664000000),
   (40182749205782331000, 1985507175123191200000, 98014492824876809000000, 23723379504183550000000),
   (46456240886174612000, 1985507175123191200000, 98014492824876809000000, 40828267875217511000000),
   (46456240886174612000, 1985507175123191200000, 98014492824876809000000, 59171732124782495000000),
   (40182749205782331000, 1985507175123191200000, 98014492824876809000000, 76276620495816450000000),
   (28484832734594818000, 1985507175123191200000, 98014492824876809000000, 89833323870681336000000),
   (12966384167098537000, 1985507175123191200000, 98014492824876809000000, 98014492824876809000000),
   (28484832734594818000, 10166676129318664000000, 98014492824876809000000, 1985507175123191200000),
   (62576095653303989000, 10166676129318664000000, 98014492824876809000000, 10166676129318664000000),
   (88274331162209213000, 10166676129318664000000, 98014492824876809000000, 23723379504183550000000),
   (102056073155577410000, 10166676129318664000000, 98014492824876809000000, 40828267875217511000000),
   (102056073155577410000, 10166676129318664000000, 98014492824876809000000, 59171732124782495000000),
   (88274331162209213000, 10166676129318664000000, 98014492824876809000000, 76276620495816450000000),
   (62576095653303989000, 10166676129318664000000, 98014492824876809000000, 89833323870681336000000),
   (28484832734594818000, 10166676129318664000000, 98014492824876809000000, 98014492824876809000000),
   (40182749205782325000, 23723379504183550000000, 98014492824876809000000, 1985507175123191200000),
   (88274331162209202000, 23723379504183550000000, 98014492824876809000000, 10166676129318664000000),
   (124526106347511420000, 23723379504183550000000, 98014492824876809000000, 23723379504183550000000),
   (143967620619271090000, 23723379504183550000000, 98014492824876809000000, 40828267875217511000000),
   (143967620619271090000, 23723379504183550000000, 98014492824876809000000, 59171732124782495000000),
   (124526106347511420000, 23723379504183550000000, 98014492824876809000000, 76276620495816450000000),
   (88274331162209202000, 23723379504183550000000, 98014492824876809000000, 89833323870681336000000),
   (40182749205782325000, 23723379504183550000000, 98014492824876809000000, 98014492824876809000000),
   (46456240886174607000, 40828267875217511000000, 98014492824876809000000, 1985507175123191200000),
   (102056073155577390000, 40828267875217511000000, 98014492824876809000000, 10166676129318664000000),
   (143967620619271090000, 40828267875217511000000, 98014492824876809000000, 23723379504183550000000),
   (166444421934570370000, 40828267875217511000000, 98014492824876809000000, 40828267875217511000000),
   (166444421934570370000, 40828267875217511000000, 98014492824876809000000, 59171732124782495000000),
   (143967620619271090000, 40828267875217511000000, 98014492824876809000000, 76276620495816450000000),
   (102056073155577390000, 40828267875217511000000, 98014492824876809000000, 89833323870681336000000),
   (46456240886174607000, 40828267875217511000000, 98014492824876809000000, 98014492824876809000000),
   (46456240886174607000, 59171732124782495000000, 98014492824876809000000, 1985507175123191200000),
   (102056073155577390000, 59171732124782495000000, 98014492824876809000000, 10166676129318664000000),
   (143967620619271090000, 59171732124782495000000, 98014492824876809000000, 23723379504183550000000),
   (166444421934570370000, 59171732124782495000000, 98014492824876809000000, 40828267875217511000000),
   (166444421934570370000, 59171732124782495000000, 98014492824876809000000, 59171732124782495000000),
   (143967620619271090000, 59171732124782495000000, 98014492824876809000000, 76276620495816450000000),
   (102056073155577390000, 59171732124782495000000, 98014492824876809000000, 89833323870681336000000),
   (46456240886174607000, 59171732124782495000000, 98014492824876809000000, 98014492824876809000000),
   (40182749205782325000, 76276620495816450000000, 98014492824876809000000, 1985507175123191200000),
   (88274331162209202000, 76276620495816450000000, 98014492824876809000000, 10166676129318664000000),
   (124526106347511420000, 76276620495816450000000, 98014492824876809000000, 23723379504183550000000),
   (143967620619271090000, 76276620495816450000000, 98014492824876809000000, 40828267875217511000000),
   (143967620619271090000, 76276620495816450000000, 98014492824876809000000, 59171732124782495000000),
   (124526106347511420000, 76276620495816450000000, 98014492824876809000000, 76276620495816450000000),
   (88274331162209202000, 76276620495816450000000, 98014492824876809000000, 89833323870681336000000),
   (40182749205782325000, 76276620495816450000000, 98014492824876809000000, 98014492824876809000000),
   (28484832734594818000, 89833323870681336000000, 98014492824876809000000, 1985507175123191200000),
   (62576095653303989000, 89833323870681336000000, 98014492824876809000000, 10166676129318664000000),
   (88274331162209213000, 89833323870681336000000, 98014492824876809000000, 23723379504183550000000),
   (102056073155577410000, 89833323870681336000000, 98014492824876809000000, 40828267875217511000000),
   (102056073155577410000, 89833323870681336000000, 98014492824876809000000, 59171732124782495000000),
   (88274331162209213000, 89833323870681336000000, 98014492824876809000000, 76276620495816450000000),
   (62576095653303989000, 89833323870681336000000, 98014492824876809000000, 89833323870681336000000),
   (28484832734594818000, 89833323870681336000000, 98014492824876809000000, 98014492824876809000000),
   (12966384167098537000, 98014492824876809000000, 98014492824876809000000, 1985507175123191200000),
   (28484832734594818000, 98014492824876809000000, 98014492824876809000000, 10166676129318664000000),
   (40182749205782331000, 98014492824876809000000, 98014492824876809000000, 23723379504183550000000),
   (46456240886174612000, 98014492824876809000000, 98014492824876809000000, 40828267875217511000000),
   (46456240886174612000, 98014492824876809000000, 98014492824876809000000, 59171732124782495000000),
   (40182749205782331000, 98014492824876809000000, 98014492824876809000000, 76276620495816450000000),
   (28484832734594818000, 98014492824876809000000, 98014492824876809000000, 89833323870681336000000),
   (12966384167098537000, 98014492824876809000000, 98014492824876809000000, 98014492824876809000000)]

end Verif
