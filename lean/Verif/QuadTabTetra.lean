import Mathlib.Data.Nat.Notation
import Mathlib.Data.Int.Notation

/-
Tables of the quadrature rules: Gauss rule on the tetrahedron.

A decimal constant c of the source is stored as the integer c * 10^23; a row is (weight, x, y, z). The
rounding of the constants to doubles is left out.
-/
namespace Verif

/-- Gauss rule on the tetrahedron, number of points: 1 (`GeDiM/src/Quadrature/Quadrature_Gauss3D_Tetrahedron.cpp:26-32`, `:35-41`). The program repeats the table in every case. -/
def tetraTab1 : List (ℤ × ℕ × ℕ × ℕ) :=
  [(16666666666666666000000, 25000000000000000000000, 25000000000000000000000, 25000000000000000000000)]

/-- Gauss rule on the tetrahedron, number of points: 4 (`GeDiM/src/Quadrature/Quadrature_Gauss3D_Tetrahedron.cpp:44-62`). -/
def tetraTab2 : List (ℤ × ℕ × ℕ × ℕ) :=
  [(4166666666666666400000, 58541019662496896000000, 13819660112501100000000, 13819660112501100000000),
   (4166666666666666400000, 13819660112501100000000, 58541019662496896000000, 13819660112501100000000),
   (4166666666666666400000, 13819660112501100000000, 13819660112501100000000, 58541019662496896000000),
   (4166666666666666400000, 13819660112501100000000, 13819660112501100000000, 13819660112501100000000)]

/-- Gauss rule on the tetrahedron, number of points: 5 (`GeDiM/src/Quadrature/Quadrature_Gauss3D_Tetrahedron.cpp:65-87`). -/
def tetraTab3 : List (ℤ × ℕ × ℕ × ℕ) :=
  [(-13333333333333319000000, 25000000000000000000000, 25000000000000000000000, 25000000000000000000000),
   (7499999999999999700000, 50000000000000000000000, 16666666666666666000000, 16666666666666666000000),
   (7499999999999999700000, 16666666666666666000000, 50000000000000000000000, 16666666666666666000000),
   (7499999999999999700000, 16666666666666666000000, 16666666666666666000000, 50000000000000000000000),
   (7499999999999999700000, 16666666666666666000000, 16666666666666666000000, 16666666666666666000000)]

/-- Gauss rule on the tetrahedron, number of points: 11 (`GeDiM/src/Quadrature/Quadrature_Gauss3D_Tetrahedron.cpp:90-136`). -/
def tetraTab4 : List (ℤ × ℕ × ℕ × ℕ) :=
  [(-1315555555555555600000, 25000000000000000000000, 25000000000000000000000, 25000000000000000000000),
   (762222222222222210000, 78571428571428570000000, 7142857142857142500000, 7142857142857142500000),
   (762222222222222210000, 7142857142857142500000, 78571428571428570000000, 7142857142857142500000),
   (762222222222222210000, 7142857142857142500000, 7142857142857142500000, 78571428571428570000000),
   (762222222222222210000, 7142857142857142500000, 7142857142857142500000, 7142857142857142500000),
   (2488888888888888700000, 39940357616679922000000, 39940357616679922000000, 10059642383320079000000),
   (2488888888888888700000, 39940357616679922000000, 10059642383320079000000, 10059642383320079000000),
   (2488888888888888700000, 10059642383320079000000, 10059642383320079000000, 39940357616679922000000),
   (2488888888888888700000, 10059642383320079000000, 39940357616679922000000, 10059642383320079000000),
   (2488888888888888700000, 10059642383320079000000, 39940357616679922000000, 39940357616679922000000),
   (2488888888888888700000, 39940357616679922000000, 10059642383320079000000, 39940357616679922000000)]

/-- Gauss rule on the tetrahedron, number of points: 14 (`GeDiM/src/Quadrature/Quadrature_Gauss3D_Tetrahedron.cpp:139-197`). -/
def tetraTab5 : List (ℤ × ℕ × ℕ × ℕ) :=
  [(1878132095300264300000, 31088591926330061000000, 31088591926330061000000, 31088591926330061000000),
   (1878132095300264300000, 31088591926330061000000, 6734224221009821300000, 31088591926330061000000),
   (1878132095300264300000, 6734224221009821300000, 31088591926330061000000, 31088591926330061000000),
   (1878132095300264300000, 31088591926330061000000, 31088591926330061000000, 6734224221009821300000),
   (1224884051939365900000, 9273525031089122100000, 9273525031089122100000, 9273525031089122100000),
   (1224884051939365900000, 9273525031089122100000, 72179424906732637000000, 9273525031089122100000),
   (1224884051939365900000, 72179424906732637000000, 9273525031089122100000, 9273525031089122100000),
   (1224884051939365900000, 9273525031089122100000, 9273525031089122100000, 72179424906732637000000),
   (709100346284691120000, 45449629587435036000000, 45449629587435036000000, 4550370412564964900000),
   (709100346284691120000, 45449629587435036000000, 4550370412564964900000, 4550370412564964900000),
   (709100346284691120000, 4550370412564964900000, 4550370412564964900000, 45449629587435036000000),
   (709100346284691120000, 4550370412564964900000, 45449629587435036000000, 4550370412564964900000),
   (709100346284691120000, 45449629587435036000000, 4550370412564964900000, 45449629587435036000000),
   (709100346284691120000, 4550370412564964900000, 45449629587435036000000, 45449629587435036000000)]

/-- Gauss rule on the tetrahedron, number of points: 24 (`GeDiM/src/Quadrature/Quadrature_Gauss3D_Tetrahedron.cpp:200-298`). -/
def tetraTab6 : List (ℤ × ℕ × ℕ × ℕ) :=
  [(665379170969464510000, 35619138622254493000000, 21460287125915167000000, 21460287125915167000000),
   (665379170969464510000, 21460287125915167000000, 35619138622254493000000, 21460287125915167000000),
   (665379170969464510000, 21460287125915167000000, 21460287125915167000000, 35619138622254493000000),
   (665379170969464510000, 21460287125915167000000, 21460287125915167000000, 21460287125915167000000),
   (167953517588677630000, 87797812439616596000000, 4067395853461133700000, 4067395853461133700000),
   (167953517588677630000, 4067395853461133700000, 87797812439616596000000, 4067395853461133700000),
   (167953517588677630000, 4067395853461133700000, 4067395853461133700000, 87797812439616596000000),
   (167953517588677630000, 4067395853461133700000, 4067395853461133700000, 4067395853461133700000),
   (922619692394239900000, 3298632957317305900000, 32233789014227565000000, 32233789014227565000000),
   (922619692394239900000, 32233789014227565000000, 3298632957317305900000, 32233789014227565000000),
   (922619692394239900000, 32233789014227565000000, 32233789014227565000000, 3298632957317305900000),
   (922619692394239900000, 32233789014227565000000, 32233789014227565000000, 32233789014227565000000),
   (803571428571428320000, 6366100187501752500000, 6366100187501752500000, 26967233145831587000000),
   (803571428571428320000, 6366100187501752500000, 6366100187501752500000, 60300566479164908000000),
   (803571428571428320000, 26967233145831587000000, 6366100187501752500000, 6366100187501752500000),
   (803571428571428320000, 60300566479164908000000, 6366100187501752500000, 6366100187501752500000),
   (803571428571428320000, 6366100187501752500000, 26967233145831587000000, 6366100187501752500000),
   (803571428571428320000, 6366100187501752500000, 60300566479164908000000, 6366100187501752500000),
   (803571428571428320000, 6366100187501752500000, 26967233145831587000000, 60300566479164908000000),
   (803571428571428320000, 6366100187501752500000, 60300566479164908000000, 26967233145831587000000),
   (803571428571428320000, 26967233145831587000000, 6366100187501752500000, 60300566479164908000000),
   (803571428571428320000, 26967233145831587000000, 60300566479164908000000, 6366100187501752500000),
   (803571428571428320000, 60300566479164908000000, 6366100187501752500000, 26967233145831587000000),
   (803571428571428320000, 60300566479164908000000, 26967233145831587000000, 6366100187501752500000)]

/-- Gauss rule on the tetrahedron, number of points: 45 (`GeDiM/src/Quadrature/Quadrature_Gauss3D_Tetrahedron.cpp:301-483`, `:486-668`). The program repeats the table in every case. -/
def tetraTab8 : List (ℤ × ℕ × ℕ × ℕ) :=
  [(-3932700664129261400000, 25000000000000000000000, 25000000000000000000000, 25000000000000000000000),
   (408131605934270500000, 61758719030008302000000, 12747093656663902000000, 12747093656663902000000),
   (408131605934270500000, 12747093656663902000000, 61758719030008302000000, 12747093656663902000000),
   (408131605934270500000, 12747093656663902000000, 12747093656663902000000, 61758719030008302000000),
   (408131605934270500000, 12747093656663902000000, 12747093656663902000000, 12747093656663902000000),
   (65808677330434189000, 90376350882210310000000, 3207883039263229700000, 3207883039263229700000),
   (65808677330434189000, 3207883039263229700000, 90376350882210310000000, 3207883039263229700000),
   (65808677330434189000, 3207883039263229700000, 3207883039263229700000, 90376350882210310000000),
   (65808677330434189000, 3207883039263229700000, 3207883039263229700000, 3207883039263229700000),
   (438425882512284700000, 4977709564328101900000, 4977709564328101900000, 45022290435671897000000),
   (438425882512284700000, 4977709564328101900000, 45022290435671897000000, 45022290435671897000000),
   (438425882512284700000, 45022290435671897000000, 45022290435671897000000, 4977709564328101900000),
   (438425882512284700000, 45022290435671897000000, 4977709564328101900000, 45022290435671897000000),
   (438425882512284700000, 45022290435671897000000, 4977709564328101900000, 4977709564328101900000),
   (438425882512284700000, 4977709564328101900000, 45022290435671897000000, 4977709564328101900000),
   (1383006384250981700000, 18373044739854993000000, 18373044739854993000000, 31626955260145007000000),
   (1383006384250981700000, 18373044739854993000000, 31626955260145007000000, 31626955260145007000000),
   (1383006384250981700000, 31626955260145007000000, 31626955260145007000000, 18373044739854993000000),
   (1383006384250981700000, 31626955260145007000000, 18373044739854993000000, 31626955260145007000000),
   (1383006384250981700000, 31626955260145007000000, 18373044739854993000000, 18373044739854993000000),
   (1383006384250981700000, 18373044739854993000000, 31626955260145007000000, 18373044739854993000000),
   (424043742468372450000, 23190108939715090000000, 23190108939715090000000, 2291778784481711800000),
   (424043742468372450000, 23190108939715090000000, 23190108939715090000000, 51328003336088113000000),
   (424043742468372450000, 2291778784481711800000, 23190108939715090000000, 23190108939715090000000),
   (424043742468372450000, 51328003336088113000000, 23190108939715090000000, 23190108939715090000000),
   (424043742468372450000, 23190108939715090000000, 2291778784481711800000, 23190108939715090000000),
   (424043742468372450000, 23190108939715090000000, 51328003336088113000000, 23190108939715090000000),
   (424043742468372450000, 23190108939715090000000, 2291778784481711800000, 51328003336088113000000),
   (424043742468372450000, 23190108939715090000000, 51328003336088113000000, 2291778784481711800000),
   (424043742468372450000, 2291778784481711800000, 23190108939715090000000, 51328003336088113000000),
   (424043742468372450000, 2291778784481711800000, 51328003336088113000000, 23190108939715090000000),
   (424043742468372450000, 51328003336088113000000, 23190108939715090000000, 2291778784481711800000),
   (424043742468372450000, 51328003336088113000000, 2291778784481711800000, 23190108939715090000000),
   (223873973961420150000, 3797004847182861000000, 3797004847182861000000, 73031342780753838000000),
   (223873973961420150000, 3797004847182861000000, 3797004847182861000000, 19374647524880440000000),
   (223873973961420150000, 73031342780753838000000, 3797004847182861000000, 3797004847182861000000),
   (223873973961420150000, 19374647524880440000000, 3797004847182861000000, 3797004847182861000000),
   (223873973961420150000, 3797004847182861000000, 73031342780753838000000, 3797004847182861000000),
   (223873973961420150000, 3797004847182861000000, 19374647524880440000000, 3797004847182861000000),
   (223873973961420150000, 3797004847182861000000, 73031342780753838000000, 19374647524880440000000),
   (223873973961420150000, 3797004847182861000000, 19374647524880440000000, 73031342780753838000000),
   (223873973961420150000, 73031342780753838000000, 3797004847182861000000, 19374647524880440000000),
   (223873973961420150000, 73031342780753838000000, 19374647524880440000000, 3797004847182861000000),
   (223873973961420150000, 19374647524880440000000, 3797004847182861000000, 73031342780753838000000),
   (223873973961420150000, 19374647524880440000000, 73031342780753838000000, 3797004847182861000000)]

/-- Gauss rule on the tetrahedron, number of points: 70 (`GeDiM/src/Quadrature/Quadrature_Gauss3D_Tetrahedron.cpp:671-953`). -/
def tetraTab9 : List (ℤ × ℕ × ℕ × ℕ) :=
  [(4207792207792207500000, 75000000000000000000000, 8333333333333332900000, 8333333333333332900000),
   (4207792207792207500000, 58333333333333337000000, 25000000000000000000000, 8333333333333332900000),
   (4207792207792207500000, 41666666666666669000000, 41666666666666669000000, 8333333333333332900000),
   (4207792207792207500000, 25000000000000000000000, 58333333333333337000000, 8333333333333332900000),
   (4207792207792207500000, 8333333333333332900000, 75000000000000000000000, 8333333333333332900000),
   (4207792207792207500000, 58333333333333337000000, 8333333333333332900000, 25000000000000000000000),
   (4207792207792207500000, 41666666666666669000000, 25000000000000000000000, 25000000000000000000000),
   (4207792207792207500000, 25000000000000000000000, 41666666666666669000000, 25000000000000000000000),
   (4207792207792207500000, 8333333333333332900000, 58333333333333337000000, 25000000000000000000000),
   (4207792207792207500000, 41666666666666669000000, 8333333333333332900000, 41666666666666669000000),
   (4207792207792207500000, 25000000000000000000000, 25000000000000000000000, 41666666666666669000000),
   (4207792207792207500000, 8333333333333332900000, 41666666666666669000000, 41666666666666669000000),
   (4207792207792207500000, 25000000000000000000000, 8333333333333332900000, 58333333333333337000000),
   (4207792207792207500000, 8333333333333332900000, 25000000000000000000000, 58333333333333337000000),
   (4207792207792207500000, 8333333333333332900000, 8333333333333332900000, 75000000000000000000000),
   (4207792207792207500000, 58333333333333337000000, 8333333333333332900000, 8333333333333332900000),
   (4207792207792207500000, 41666666666666669000000, 25000000000000000000000, 8333333333333332900000),
   (4207792207792207500000, 25000000000000000000000, 41666666666666669000000, 8333333333333332900000),
   (4207792207792207500000, 8333333333333332900000, 58333333333333337000000, 8333333333333332900000),
   (4207792207792207500000, 41666666666666669000000, 8333333333333332900000, 25000000000000000000000),
   (4207792207792207500000, 25000000000000000000000, 25000000000000000000000, 25000000000000000000000),
   (4207792207792207500000, 8333333333333332900000, 41666666666666669000000, 25000000000000000000000),
   (4207792207792207500000, 25000000000000000000000, 8333333333333332900000, 41666666666666669000000),
   (4207792207792207500000, 8333333333333332900000, 25000000000000000000000, 41666666666666669000000),
   (4207792207792207500000, 8333333333333332900000, 8333333333333332900000, 58333333333333337000000),
   (4207792207792207500000, 41666666666666669000000, 8333333333333332900000, 8333333333333332900000),
   (4207792207792207500000, 25000000000000000000000, 25000000000000000000000, 8333333333333332900000),
   (4207792207792207500000, 8333333333333332900000, 41666666666666669000000, 8333333333333332900000),
   (4207792207792207500000, 25000000000000000000000, 8333333333333332900000, 25000000000000000000000),
   (4207792207792207500000, 8333333333333332900000, 25000000000000000000000, 25000000000000000000000),
   (4207792207792207500000, 8333333333333332900000, 8333333333333332900000, 41666666666666669000000),
   (4207792207792207500000, 25000000000000000000000, 8333333333333332900000, 8333333333333332900000),
   (4207792207792207500000, 8333333333333332900000, 25000000000000000000000, 8333333333333332900000),
   (4207792207792207500000, 8333333333333332900000, 8333333333333332900000, 25000000000000000000000),
   (4207792207792207500000, 8333333333333332900000, 8333333333333332900000, 8333333333333332900000),
   (-9785979838063170500000, 69999999999999996000000, 10000000000000001000000, 10000000000000001000000),
   (-9785979838063170500000, 50000000000000000000000, 29999999999999999000000, 10000000000000001000000),
   (-9785979838063170500000, 29999999999999999000000, 50000000000000000000000, 10000000000000001000000),
   (-9785979838063170500000, 10000000000000001000000, 69999999999999996000000, 10000000000000001000000),
   (-9785979838063170500000, 50000000000000000000000, 10000000000000001000000, 29999999999999999000000),
   (-9785979838063170500000, 29999999999999999000000, 29999999999999999000000, 29999999999999999000000),
   (-9785979838063170500000, 10000000000000001000000, 50000000000000000000000, 29999999999999999000000),
   (-9785979838063170500000, 29999999999999999000000, 10000000000000001000000, 50000000000000000000000),
   (-9785979838063170500000, 10000000000000001000000, 29999999999999999000000, 50000000000000000000000),
   (-9785979838063170500000, 10000000000000001000000, 10000000000000001000000, 69999999999999996000000),
   (-9785979838063170500000, 50000000000000000000000, 10000000000000001000000, 10000000000000001000000),
   (-9785979838063170500000, 29999999999999999000000, 29999999999999999000000, 10000000000000001000000),
   (-9785979838063170500000, 10000000000000001000000, 50000000000000000000000, 10000000000000001000000),
   (-9785979838063170500000, 29999999999999999000000, 10000000000000001000000, 29999999999999999000000),
   (-9785979838063170500000, 10000000000000001000000, 29999999999999999000000, 29999999999999999000000),
   (-9785979838063170500000, 10000000000000001000000, 10000000000000001000000, 50000000000000000000000),
   (-9785979838063170500000, 29999999999999999000000, 10000000000000001000000, 10000000000000001000000),
   (-9785979838063170500000, 10000000000000001000000, 29999999999999999000000, 10000000000000001000000),
   (-9785979838063170500000, 10000000000000001000000, 10000000000000001000000, 29999999999999999000000),
   (-9785979838063170500000, 10000000000000001000000, 10000000000000001000000, 10000000000000001000000),
   (7223985890652558100000, 62500000000000000000000, 12500000000000000000000, 12500000000000000000000),
   (7223985890652558100000, 37500000000000000000000, 37500000000000000000000, 12500000000000000000000),
   (7223985890652558100000, 12500000000000000000000, 62500000000000000000000, 12500000000000000000000),
   (7223985890652558100000, 37500000000000000000000, 12500000000000000000000, 37500000000000000000000),
   (7223985890652558100000, 12500000000000000000000, 37500000000000000000000, 37500000000000000000000),
   (7223985890652558100000, 12500000000000000000000, 12500000000000000000000, 62500000000000000000000),
   (7223985890652558100000, 37500000000000000000000, 12500000000000000000000, 12500000000000000000000),
   (7223985890652558100000, 12500000000000000000000, 37500000000000000000000, 12500000000000000000000),
   (7223985890652558100000, 12500000000000000000000, 12500000000000000000000, 37500000000000000000000),
   (7223985890652558100000, 12500000000000000000000, 12500000000000000000000, 12500000000000000000000),
   (-1808035714285714500000, 50000000000000000000000, 16666666666666666000000, 16666666666666666000000),
   (-1808035714285714500000, 16666666666666666000000, 50000000000000000000000, 16666666666666666000000),
   (-1808035714285714500000, 16666666666666666000000, 16666666666666666000000, 50000000000000000000000),
   (-1808035714285714500000, 16666666666666666000000, 16666666666666666000000, 16666666666666666000000),
   (105820105820105810000, 25000000000000000000000, 25000000000000000000000, 25000000000000000000000)]

/-- Gauss rule on the tetrahedron, number of points: 126 (`GeDiM/src/Quadrature/Quadrature_Gauss3D_Tetrahedron.cpp:956-1462`, `:1465-1971`). The program repeats the table in every case. -/
def tetraTab11 : List (ℤ × ℕ × ℕ × ℕ) :=
  [(4536282406508100600000, 78571428571428570000000, 7142857142857142500000, 7142857142857142500000),
   (4536282406508100600000, 64285714285714290000000, 21428571428571427000000, 7142857142857142500000),
   (4536282406508100600000, 50000000000000000000000, 35714285714285715000000, 7142857142857142500000),
   (4536282406508100600000, 35714285714285715000000, 50000000000000000000000, 7142857142857142500000),
   (4536282406508100600000, 21428571428571427000000, 64285714285714290000000, 7142857142857142500000),
   (4536282406508100600000, 7142857142857142500000, 78571428571428570000000, 7142857142857142500000),
   (4536282406508100600000, 64285714285714290000000, 7142857142857142500000, 21428571428571427000000),
   (4536282406508100600000, 50000000000000000000000, 21428571428571427000000, 21428571428571427000000),
   (4536282406508100600000, 35714285714285715000000, 35714285714285715000000, 21428571428571427000000),
   (4536282406508100600000, 21428571428571427000000, 50000000000000000000000, 21428571428571427000000),
   (4536282406508100600000, 7142857142857142500000, 64285714285714290000000, 21428571428571427000000),
   (4536282406508100600000, 50000000000000000000000, 7142857142857142500000, 35714285714285715000000),
   (4536282406508100600000, 35714285714285715000000, 21428571428571427000000, 35714285714285715000000),
   (4536282406508100600000, 21428571428571427000000, 35714285714285715000000, 35714285714285715000000),
   (4536282406508100600000, 7142857142857142500000, 50000000000000000000000, 35714285714285715000000),
   (4536282406508100600000, 35714285714285715000000, 7142857142857142500000, 50000000000000000000000),
   (4536282406508100600000, 21428571428571427000000, 21428571428571427000000, 50000000000000000000000),
   (4536282406508100600000, 7142857142857142500000, 35714285714285715000000, 50000000000000000000000),
   (4536282406508100600000, 21428571428571427000000, 7142857142857142500000, 64285714285714290000000),
   (4536282406508100600000, 7142857142857142500000, 21428571428571427000000, 64285714285714290000000),
   (4536282406508100600000, 7142857142857142500000, 7142857142857142500000, 78571428571428570000000),
   (4536282406508100600000, 64285714285714290000000, 7142857142857142500000, 7142857142857142500000),
   (4536282406508100600000, 50000000000000000000000, 21428571428571427000000, 7142857142857142500000),
   (4536282406508100600000, 35714285714285715000000, 35714285714285715000000, 7142857142857142500000),
   (4536282406508100600000, 21428571428571427000000, 50000000000000000000000, 7142857142857142500000),
   (4536282406508100600000, 7142857142857142500000, 64285714285714290000000, 7142857142857142500000),
   (4536282406508100600000, 50000000000000000000000, 7142857142857142500000, 21428571428571427000000),
   (4536282406508100600000, 35714285714285715000000, 21428571428571427000000, 21428571428571427000000),
   (4536282406508100600000, 21428571428571427000000, 35714285714285715000000, 21428571428571427000000),
   (4536282406508100600000, 7142857142857142500000, 50000000000000000000000, 21428571428571427000000),
   (4536282406508100600000, 35714285714285715000000, 7142857142857142500000, 35714285714285715000000),
   (4536282406508100600000, 21428571428571427000000, 21428571428571427000000, 35714285714285715000000),
   (4536282406508100600000, 7142857142857142500000, 35714285714285715000000, 35714285714285715000000),
   (4536282406508100600000, 21428571428571427000000, 7142857142857142500000, 50000000000000000000000),
   (4536282406508100600000, 7142857142857142500000, 21428571428571427000000, 50000000000000000000000),
   (4536282406508100600000, 7142857142857142500000, 7142857142857142500000, 64285714285714290000000),
   (4536282406508100600000, 50000000000000000000000, 7142857142857142500000, 7142857142857142500000),
   (4536282406508100600000, 35714285714285715000000, 21428571428571427000000, 7142857142857142500000),
   (4536282406508100600000, 21428571428571427000000, 35714285714285715000000, 7142857142857142500000),
   (4536282406508100600000, 7142857142857142500000, 50000000000000000000000, 7142857142857142500000),
   (4536282406508100600000, 35714285714285715000000, 7142857142857142500000, 21428571428571427000000),
   (4536282406508100600000, 21428571428571427000000, 21428571428571427000000, 21428571428571427000000),
   (4536282406508100600000, 7142857142857142500000, 35714285714285715000000, 21428571428571427000000),
   (4536282406508100600000, 21428571428571427000000, 7142857142857142500000, 35714285714285715000000),
   (4536282406508100600000, 7142857142857142500000, 21428571428571427000000, 35714285714285715000000),
   (4536282406508100600000, 7142857142857142500000, 7142857142857142500000, 50000000000000000000000),
   (4536282406508100600000, 35714285714285715000000, 7142857142857142500000, 7142857142857142500000),
   (4536282406508100600000, 21428571428571427000000, 21428571428571427000000, 7142857142857142500000),
   (4536282406508100600000, 7142857142857142500000, 35714285714285715000000, 7142857142857142500000),
   (4536282406508100600000, 21428571428571427000000, 7142857142857142500000, 21428571428571427000000),
   (4536282406508100600000, 7142857142857142500000, 21428571428571427000000, 21428571428571427000000),
   (4536282406508100600000, 7142857142857142500000, 7142857142857142500000, 35714285714285715000000),
   (4536282406508100600000, 21428571428571427000000, 7142857142857142500000, 7142857142857142500000),
   (4536282406508100600000, 7142857142857142500000, 21428571428571427000000, 7142857142857142500000),
   (4536282406508100600000, 7142857142857142500000, 7142857142857142500000, 21428571428571427000000),
   (4536282406508100600000, 7142857142857142500000, 7142857142857142500000, 7142857142857142500000),
   (-11652347652347653000000, 75000000000000000000000, 8333333333333332900000, 8333333333333332900000),
   (-11652347652347653000000, 58333333333333337000000, 25000000000000000000000, 8333333333333332900000),
   (-11652347652347653000000, 41666666666666669000000, 41666666666666669000000, 8333333333333332900000),
   (-11652347652347653000000, 25000000000000000000000, 58333333333333337000000, 8333333333333332900000),
   (-11652347652347653000000, 8333333333333332900000, 75000000000000000000000, 8333333333333332900000),
   (-11652347652347653000000, 58333333333333337000000, 8333333333333332900000, 25000000000000000000000),
   (-11652347652347653000000, 41666666666666669000000, 25000000000000000000000, 25000000000000000000000),
   (-11652347652347653000000, 25000000000000000000000, 41666666666666669000000, 25000000000000000000000),
   (-11652347652347653000000, 8333333333333332900000, 58333333333333337000000, 25000000000000000000000),
   (-11652347652347653000000, 41666666666666669000000, 8333333333333332900000, 41666666666666669000000),
   (-11652347652347653000000, 25000000000000000000000, 25000000000000000000000, 41666666666666669000000),
   (-11652347652347653000000, 8333333333333332900000, 41666666666666669000000, 41666666666666669000000),
   (-11652347652347653000000, 25000000000000000000000, 8333333333333332900000, 58333333333333337000000),
   (-11652347652347653000000, 8333333333333332900000, 25000000000000000000000, 58333333333333337000000),
   (-11652347652347653000000, 8333333333333332900000, 8333333333333332900000, 75000000000000000000000),
   (-11652347652347653000000, 58333333333333337000000, 8333333333333332900000, 8333333333333332900000),
   (-11652347652347653000000, 41666666666666669000000, 25000000000000000000000, 8333333333333332900000),
   (-11652347652347653000000, 25000000000000000000000, 41666666666666669000000, 8333333333333332900000),
   (-11652347652347653000000, 8333333333333332900000, 58333333333333337000000, 8333333333333332900000),
   (-11652347652347653000000, 41666666666666669000000, 8333333333333332900000, 25000000000000000000000),
   (-11652347652347653000000, 25000000000000000000000, 25000000000000000000000, 25000000000000000000000),
   (-11652347652347653000000, 8333333333333332900000, 41666666666666669000000, 25000000000000000000000),
   (-11652347652347653000000, 25000000000000000000000, 8333333333333332900000, 41666666666666669000000),
   (-11652347652347653000000, 8333333333333332900000, 25000000000000000000000, 41666666666666669000000),
   (-11652347652347653000000, 8333333333333332900000, 8333333333333332900000, 58333333333333337000000),
   (-11652347652347653000000, 41666666666666669000000, 8333333333333332900000, 8333333333333332900000),
   (-11652347652347653000000, 25000000000000000000000, 25000000000000000000000, 8333333333333332900000),
   (-11652347652347653000000, 8333333333333332900000, 41666666666666669000000, 8333333333333332900000),
   (-11652347652347653000000, 25000000000000000000000, 8333333333333332900000, 25000000000000000000000),
   (-11652347652347653000000, 8333333333333332900000, 25000000000000000000000, 25000000000000000000000),
   (-11652347652347653000000, 8333333333333332900000, 8333333333333332900000, 41666666666666669000000),
   (-11652347652347653000000, 25000000000000000000000, 8333333333333332900000, 8333333333333332900000),
   (-11652347652347653000000, 8333333333333332900000, 25000000000000000000000, 8333333333333332900000),
   (-11652347652347653000000, 8333333333333332900000, 8333333333333332900000, 25000000000000000000000),
   (-11652347652347653000000, 8333333333333332900000, 8333333333333332900000, 8333333333333332900000),
   (10193728997982469000000, 69999999999999996000000, 10000000000000001000000, 10000000000000001000000),
   (10193728997982469000000, 50000000000000000000000, 29999999999999999000000, 10000000000000001000000),
   (10193728997982469000000, 29999999999999999000000, 50000000000000000000000, 10000000000000001000000),
   (10193728997982469000000, 10000000000000001000000, 69999999999999996000000, 10000000000000001000000),
   (10193728997982469000000, 50000000000000000000000, 10000000000000001000000, 29999999999999999000000),
   (10193728997982469000000, 29999999999999999000000, 29999999999999999000000, 29999999999999999000000),
   (10193728997982469000000, 10000000000000001000000, 50000000000000000000000, 29999999999999999000000),
   (10193728997982469000000, 29999999999999999000000, 10000000000000001000000, 50000000000000000000000),
   (10193728997982469000000, 10000000000000001000000, 29999999999999999000000, 50000000000000000000000),
   (10193728997982469000000, 10000000000000001000000, 10000000000000001000000, 69999999999999996000000),
   (10193728997982469000000, 50000000000000000000000, 10000000000000001000000, 10000000000000001000000),
   (10193728997982469000000, 29999999999999999000000, 29999999999999999000000, 10000000000000001000000),
   (10193728997982469000000, 10000000000000001000000, 50000000000000000000000, 10000000000000001000000),
   (10193728997982469000000, 29999999999999999000000, 10000000000000001000000, 29999999999999999000000),
   (10193728997982469000000, 10000000000000001000000, 29999999999999999000000, 29999999999999999000000),
   (10193728997982469000000, 10000000000000001000000, 10000000000000001000000, 50000000000000000000000),
   (10193728997982469000000, 29999999999999999000000, 10000000000000001000000, 10000000000000001000000),
   (10193728997982469000000, 10000000000000001000000, 29999999999999999000000, 10000000000000001000000),
   (10193728997982469000000, 10000000000000001000000, 10000000000000001000000, 29999999999999999000000),
   (10193728997982469000000, 10000000000000001000000, 10000000000000001000000, 10000000000000001000000),
   (-3502538613649724300000, 62500000000000000000000, 12500000000000000000000, 12500000000000000000000),
   (-3502538613649724300000, 37500000000000000000000, 37500000000000000000000, 12500000000000000000000),
   (-3502538613649724300000, 12500000000000000000000, 62500000000000000000000, 12500000000000000000000),
   (-3502538613649724300000, 37500000000000000000000, 12500000000000000000000, 37500000000000000000000),
   (-3502538613649724300000, 12500000000000000000000, 37500000000000000000000, 37500000000000000000000),
   (-3502538613649724300000, 12500000000000000000000, 12500000000000000000000, 62500000000000000000000),
   (-3502538613649724300000, 37500000000000000000000, 12500000000000000000000, 12500000000000000000000),
   (-3502538613649724300000, 12500000000000000000000, 37500000000000000000000, 12500000000000000000000),
   (-3502538613649724300000, 12500000000000000000000, 12500000000000000000000, 37500000000000000000000),
   (-3502538613649724300000, 12500000000000000000000, 12500000000000000000000, 12500000000000000000000),
   (406808035714285690000, 50000000000000000000000, 16666666666666666000000, 16666666666666666000000),
   (406808035714285690000, 16666666666666666000000, 50000000000000000000000, 16666666666666666000000),
   (406808035714285690000, 16666666666666666000000, 16666666666666666000000, 50000000000000000000000),
   (406808035714285690000, 16666666666666666000000, 16666666666666666000000, 16666666666666666000000),
   (-9406231628453848500, 25000000000000000000000, 25000000000000000000000, 25000000000000000000000)]

/-- Gauss rule on the tetrahedron, number of points: 210 (`GeDiM/src/Quadrature/Quadrature_Gauss3D_Tetrahedron.cpp:1974-2816`, `:2819-3661`). The program repeats the table in every case. -/
def tetraTab13 : List (ℤ × ℕ × ℕ × ℕ) :=
  [(5255090901651748900000, 81250000000000000000000, 6250000000000000000000, 6250000000000000000000),
   (5255090901651748900000, 68750000000000000000000, 18750000000000000000000, 6250000000000000000000),
   (5255090901651748900000, 56250000000000000000000, 31250000000000000000000, 6250000000000000000000),
   (5255090901651748900000, 43750000000000000000000, 43750000000000000000000, 6250000000000000000000),
   (5255090901651748900000, 31250000000000000000000, 56250000000000000000000, 6250000000000000000000),
   (5255090901651748900000, 18750000000000000000000, 68750000000000000000000, 6250000000000000000000),
   (5255090901651748900000, 6250000000000000000000, 81250000000000000000000, 6250000000000000000000),
   (5255090901651748900000, 68750000000000000000000, 6250000000000000000000, 18750000000000000000000),
   (5255090901651748900000, 56250000000000000000000, 18750000000000000000000, 18750000000000000000000),
   (5255090901651748900000, 43750000000000000000000, 31250000000000000000000, 18750000000000000000000),
   (5255090901651748900000, 31250000000000000000000, 43750000000000000000000, 18750000000000000000000),
   (5255090901651748900000, 18750000000000000000000, 56250000000000000000000, 18750000000000000000000),
   (5255090901651748900000, 6250000000000000000000, 68750000000000000000000, 18750000000000000000000),
   (5255090901651748900000, 56250000000000000000000, 6250000000000000000000, 31250000000000000000000),
   (5255090901651748900000, 43750000000000000000000, 18750000000000000000000, 31250000000000000000000),
   (5255090901651748900000, 31250000000000000000000, 31250000000000000000000, 31250000000000000000000),
   (5255090901651748900000, 18750000000000000000000, 43750000000000000000000, 31250000000000000000000),
   (5255090901651748900000, 6250000000000000000000, 56250000000000000000000, 31250000000000000000000),
   (5255090901651748900000, 43750000000000000000000, 6250000000000000000000, 43750000000000000000000),
   (5255090901651748900000, 31250000000000000000000, 18750000000000000000000, 43750000000000000000000),
   (5255090901651748900000, 18750000000000000000000, 31250000000000000000000, 43750000000000000000000),
   (5255090901651748900000, 6250000000000000000000, 43750000000000000000000, 43750000000000000000000),
   (5255090901651748900000, 31250000000000000000000, 6250000000000000000000, 56250000000000000000000),
   (5255090901651748900000, 18750000000000000000000, 18750000000000000000000, 56250000000000000000000),
   (5255090901651748900000, 6250000000000000000000, 31250000000000000000000, 56250000000000000000000),
   (5255090901651748900000, 18750000000000000000000, 6250000000000000000000, 68750000000000000000000),
   (5255090901651748900000, 6250000000000000000000, 18750000000000000000000, 68750000000000000000000),
   (5255090901651748900000, 6250000000000000000000, 6250000000000000000000, 81250000000000000000000),
   (5255090901651748900000, 68750000000000000000000, 6250000000000000000000, 6250000000000000000000),
   (5255090901651748900000, 56250000000000000000000, 18750000000000000000000, 6250000000000000000000),
   (5255090901651748900000, 43750000000000000000000, 31250000000000000000000, 6250000000000000000000),
   (5255090901651748900000, 31250000000000000000000, 43750000000000000000000, 6250000000000000000000),
   (5255090901651748900000, 18750000000000000000000, 56250000000000000000000, 6250000000000000000000),
   (5255090901651748900000, 6250000000000000000000, 68750000000000000000000, 6250000000000000000000),
   (5255090901651748900000, 56250000000000000000000, 6250000000000000000000, 18750000000000000000000),
   (5255090901651748900000, 43750000000000000000000, 18750000000000000000000, 18750000000000000000000),
   (5255090901651748900000, 31250000000000000000000, 31250000000000000000000, 18750000000000000000000),
   (5255090901651748900000, 18750000000000000000000, 43750000000000000000000, 18750000000000000000000),
   (5255090901651748900000, 6250000000000000000000, 56250000000000000000000, 18750000000000000000000),
   (5255090901651748900000, 43750000000000000000000, 6250000000000000000000, 31250000000000000000000),
   (5255090901651748900000, 31250000000000000000000, 18750000000000000000000, 31250000000000000000000),
   (5255090901651748900000, 18750000000000000000000, 31250000000000000000000, 31250000000000000000000),
   (5255090901651748900000, 6250000000000000000000, 43750000000000000000000, 31250000000000000000000),
   (5255090901651748900000, 31250000000000000000000, 6250000000000000000000, 43750000000000000000000),
   (5255090901651748900000, 18750000000000000000000, 18750000000000000000000, 43750000000000000000000),
   (5255090901651748900000, 6250000000000000000000, 31250000000000000000000, 43750000000000000000000),
   (5255090901651748900000, 18750000000000000000000, 6250000000000000000000, 56250000000000000000000),
   (5255090901651748900000, 6250000000000000000000, 18750000000000000000000, 56250000000000000000000),
   (5255090901651748900000, 6250000000000000000000, 6250000000000000000000, 68750000000000000000000),
   (5255090901651748900000, 56250000000000000000000, 6250000000000000000000, 6250000000000000000000),
   (5255090901651748900000, 43750000000000000000000, 18750000000000000000000, 6250000000000000000000),
   (5255090901651748900000, 31250000000000000000000, 31250000000000000000000, 6250000000000000000000),
   (5255090901651748900000, 18750000000000000000000, 43750000000000000000000, 6250000000000000000000),
   (5255090901651748900000, 6250000000000000000000, 56250000000000000000000, 6250000000000000000000),
   (5255090901651748900000, 43750000000000000000000, 6250000000000000000000, 18750000000000000000000),
   (5255090901651748900000, 31250000000000000000000, 18750000000000000000000, 18750000000000000000000),
   (5255090901651748900000, 18750000000000000000000, 31250000000000000000000, 18750000000000000000000),
   (5255090901651748900000, 6250000000000000000000, 43750000000000000000000, 18750000000000000000000),
   (5255090901651748900000, 31250000000000000000000, 6250000000000000000000, 31250000000000000000000),
   (5255090901651748900000, 18750000000000000000000, 18750000000000000000000, 31250000000000000000000),
   (5255090901651748900000, 6250000000000000000000, 31250000000000000000000, 31250000000000000000000),
   (5255090901651748900000, 18750000000000000000000, 6250000000000000000000, 43750000000000000000000),
   (5255090901651748900000, 6250000000000000000000, 18750000000000000000000, 43750000000000000000000),
   (5255090901651748900000, 6250000000000000000000, 6250000000000000000000, 56250000000000000000000),
   (5255090901651748900000, 43750000000000000000000, 6250000000000000000000, 6250000000000000000000),
   (5255090901651748900000, 31250000000000000000000, 18750000000000000000000, 6250000000000000000000),
   (5255090901651748900000, 18750000000000000000000, 31250000000000000000000, 6250000000000000000000),
   (5255090901651748900000, 6250000000000000000000, 43750000000000000000000, 6250000000000000000000),
   (5255090901651748900000, 31250000000000000000000, 6250000000000000000000, 18750000000000000000000),
   (5255090901651748900000, 18750000000000000000000, 18750000000000000000000, 18750000000000000000000),
   (5255090901651748900000, 6250000000000000000000, 31250000000000000000000, 18750000000000000000000),
   (5255090901651748900000, 18750000000000000000000, 6250000000000000000000, 31250000000000000000000),
   (5255090901651748900000, 6250000000000000000000, 18750000000000000000000, 31250000000000000000000),
   (5255090901651748900000, 6250000000000000000000, 6250000000000000000000, 43750000000000000000000),
   (5255090901651748900000, 31250000000000000000000, 6250000000000000000000, 6250000000000000000000),
   (5255090901651748900000, 18750000000000000000000, 18750000000000000000000, 6250000000000000000000),
   (5255090901651748900000, 6250000000000000000000, 31250000000000000000000, 6250000000000000000000),
   (5255090901651748900000, 18750000000000000000000, 6250000000000000000000, 18750000000000000000000),
   (5255090901651748900000, 6250000000000000000000, 18750000000000000000000, 18750000000000000000000),
   (5255090901651748900000, 6250000000000000000000, 6250000000000000000000, 31250000000000000000000),
   (5255090901651748900000, 18750000000000000000000, 6250000000000000000000, 6250000000000000000000),
   (5255090901651748900000, 6250000000000000000000, 18750000000000000000000, 6250000000000000000000),
   (5255090901651748900000, 6250000000000000000000, 6250000000000000000000, 18750000000000000000000),
   (5255090901651748900000, 6250000000000000000000, 6250000000000000000000, 6250000000000000000000),
   (-14818522527926464000000, 78571428571428570000000, 7142857142857142500000, 7142857142857142500000),
   (-14818522527926464000000, 64285714285714290000000, 21428571428571427000000, 7142857142857142500000),
   (-14818522527926464000000, 50000000000000000000000, 35714285714285715000000, 7142857142857142500000),
   (-14818522527926464000000, 35714285714285715000000, 50000000000000000000000, 7142857142857142500000),
   (-14818522527926464000000, 21428571428571427000000, 64285714285714290000000, 7142857142857142500000),
   (-14818522527926464000000, 7142857142857142500000, 78571428571428570000000, 7142857142857142500000),
   (-14818522527926464000000, 64285714285714290000000, 7142857142857142500000, 21428571428571427000000),
   (-14818522527926464000000, 50000000000000000000000, 21428571428571427000000, 21428571428571427000000),
   (-14818522527926464000000, 35714285714285715000000, 35714285714285715000000, 21428571428571427000000),
   (-14818522527926464000000, 21428571428571427000000, 50000000000000000000000, 21428571428571427000000),
   (-14818522527926464000000, 7142857142857142500000, 64285714285714290000000, 21428571428571427000000),
   (-14818522527926464000000, 50000000000000000000000, 7142857142857142500000, 35714285714285715000000),
   (-14818522527926464000000, 35714285714285715000000, 21428571428571427000000, 35714285714285715000000),
   (-14818522527926464000000, 21428571428571427000000, 35714285714285715000000, 35714285714285715000000),
   (-14818522527926464000000, 7142857142857142500000, 50000000000000000000000, 35714285714285715000000),
   (-14818522527926464000000, 35714285714285715000000, 7142857142857142500000, 50000000000000000000000),
   (-14818522527926464000000, 21428571428571427000000, 21428571428571427000000, 50000000000000000000000),
   (-14818522527926464000000, 7142857142857142500000, 35714285714285715000000, 50000000000000000000000),
   (-14818522527926464000000, 21428571428571427000000, 7142857142857142500000, 64285714285714290000000),
   (-14818522527926464000000, 7142857142857142500000, 21428571428571427000000, 64285714285714290000000),
   (-14818522527926464000000, 7142857142857142500000, 7142857142857142500000, 78571428571428570000000),
   (-14818522527926464000000, 64285714285714290000000, 7142857142857142500000, 7142857142857142500000),
   (-14818522527926464000000, 50000000000000000000000, 21428571428571427000000, 7142857142857142500000),
   (-14818522527926464000000, 35714285714285715000000, 35714285714285715000000, 7142857142857142500000),
   (-14818522527926464000000, 21428571428571427000000, 50000000000000000000000, 7142857142857142500000),
   (-14818522527926464000000, 7142857142857142500000, 64285714285714290000000, 7142857142857142500000),
   (-14818522527926464000000, 50000000000000000000000, 7142857142857142500000, 21428571428571427000000),
   (-14818522527926464000000, 35714285714285715000000, 21428571428571427000000, 21428571428571427000000),
   (-14818522527926464000000, 21428571428571427000000, 35714285714285715000000, 21428571428571427000000),
   (-14818522527926464000000, 7142857142857142500000, 50000000000000000000000, 21428571428571427000000),
   (-14818522527926464000000, 35714285714285715000000, 7142857142857142500000, 35714285714285715000000),
   (-14818522527926464000000, 21428571428571427000000, 21428571428571427000000, 35714285714285715000000),
   (-14818522527926464000000, 7142857142857142500000, 35714285714285715000000, 35714285714285715000000),
   (-14818522527926464000000, 21428571428571427000000, 7142857142857142500000, 50000000000000000000000),
   (-14818522527926464000000, 7142857142857142500000, 21428571428571427000000, 50000000000000000000000),
   (-14818522527926464000000, 7142857142857142500000, 7142857142857142500000, 64285714285714290000000),
   (-14818522527926464000000, 50000000000000000000000, 7142857142857142500000, 7142857142857142500000),
   (-14818522527926464000000, 35714285714285715000000, 21428571428571427000000, 7142857142857142500000),
   (-14818522527926464000000, 21428571428571427000000, 35714285714285715000000, 7142857142857142500000),
   (-14818522527926464000000, 7142857142857142500000, 50000000000000000000000, 7142857142857142500000),
   (-14818522527926464000000, 35714285714285715000000, 7142857142857142500000, 21428571428571427000000),
   (-14818522527926464000000, 21428571428571427000000, 21428571428571427000000, 21428571428571427000000),
   (-14818522527926464000000, 7142857142857142500000, 35714285714285715000000, 21428571428571427000000),
   (-14818522527926464000000, 21428571428571427000000, 7142857142857142500000, 35714285714285715000000),
   (-14818522527926464000000, 7142857142857142500000, 21428571428571427000000, 35714285714285715000000),
   (-14818522527926464000000, 7142857142857142500000, 7142857142857142500000, 50000000000000000000000),
   (-14818522527926464000000, 35714285714285715000000, 7142857142857142500000, 7142857142857142500000),
   (-14818522527926464000000, 21428571428571427000000, 21428571428571427000000, 7142857142857142500000),
   (-14818522527926464000000, 7142857142857142500000, 35714285714285715000000, 7142857142857142500000),
   (-14818522527926464000000, 21428571428571427000000, 7142857142857142500000, 21428571428571427000000),
   (-14818522527926464000000, 7142857142857142500000, 21428571428571427000000, 21428571428571427000000),
   (-14818522527926464000000, 7142857142857142500000, 7142857142857142500000, 35714285714285715000000),
   (-14818522527926464000000, 21428571428571427000000, 7142857142857142500000, 7142857142857142500000),
   (-14818522527926464000000, 7142857142857142500000, 21428571428571427000000, 7142857142857142500000),
   (-14818522527926464000000, 7142857142857142500000, 7142857142857142500000, 21428571428571427000000),
   (-14818522527926464000000, 7142857142857142500000, 7142857142857142500000, 7142857142857142500000),
   (14981589838732695000000, 75000000000000000000000, 8333333333333332900000, 8333333333333332900000),
   (14981589838732695000000, 58333333333333337000000, 25000000000000000000000, 8333333333333332900000),
   (14981589838732695000000, 41666666666666669000000, 41666666666666669000000, 8333333333333332900000),
   (14981589838732695000000, 25000000000000000000000, 58333333333333337000000, 8333333333333332900000),
   (14981589838732695000000, 8333333333333332900000, 75000000000000000000000, 8333333333333332900000),
   (14981589838732695000000, 58333333333333337000000, 8333333333333332900000, 25000000000000000000000),
   (14981589838732695000000, 41666666666666669000000, 25000000000000000000000, 25000000000000000000000),
   (14981589838732695000000, 25000000000000000000000, 41666666666666669000000, 25000000000000000000000),
   (14981589838732695000000, 8333333333333332900000, 58333333333333337000000, 25000000000000000000000),
   (14981589838732695000000, 41666666666666669000000, 8333333333333332900000, 41666666666666669000000),
   (14981589838732695000000, 25000000000000000000000, 25000000000000000000000, 41666666666666669000000),
   (14981589838732695000000, 8333333333333332900000, 41666666666666669000000, 41666666666666669000000),
   (14981589838732695000000, 25000000000000000000000, 8333333333333332900000, 58333333333333337000000),
   (14981589838732695000000, 8333333333333332900000, 25000000000000000000000, 58333333333333337000000),
   (14981589838732695000000, 8333333333333332900000, 8333333333333332900000, 75000000000000000000000),
   (14981589838732695000000, 58333333333333337000000, 8333333333333332900000, 8333333333333332900000),
   (14981589838732695000000, 41666666666666669000000, 25000000000000000000000, 8333333333333332900000),
   (14981589838732695000000, 25000000000000000000000, 41666666666666669000000, 8333333333333332900000),
   (14981589838732695000000, 8333333333333332900000, 58333333333333337000000, 8333333333333332900000),
   (14981589838732695000000, 41666666666666669000000, 8333333333333332900000, 25000000000000000000000),
   (14981589838732695000000, 25000000000000000000000, 25000000000000000000000, 25000000000000000000000),
   (14981589838732695000000, 8333333333333332900000, 41666666666666669000000, 25000000000000000000000),
   (14981589838732695000000, 25000000000000000000000, 8333333333333332900000, 41666666666666669000000),
   (14981589838732695000000, 8333333333333332900000, 25000000000000000000000, 41666666666666669000000),
   (14981589838732695000000, 8333333333333332900000, 8333333333333332900000, 58333333333333337000000),
   (14981589838732695000000, 41666666666666669000000, 8333333333333332900000, 8333333333333332900000),
   (14981589838732695000000, 25000000000000000000000, 25000000000000000000000, 8333333333333332900000),
   (14981589838732695000000, 8333333333333332900000, 41666666666666669000000, 8333333333333332900000),
   (14981589838732695000000, 25000000000000000000000, 8333333333333332900000, 25000000000000000000000),
   (14981589838732695000000, 8333333333333332900000, 25000000000000000000000, 25000000000000000000000),
   (14981589838732695000000, 8333333333333332900000, 8333333333333332900000, 41666666666666669000000),
   (14981589838732695000000, 25000000000000000000000, 8333333333333332900000, 8333333333333332900000),
   (14981589838732695000000, 8333333333333332900000, 25000000000000000000000, 8333333333333332900000),
   (14981589838732695000000, 8333333333333332900000, 8333333333333332900000, 25000000000000000000000),
   (14981589838732695000000, 8333333333333332900000, 8333333333333332900000, 8333333333333332900000),
   (-6534441665373379200000, 69999999999999996000000, 10000000000000001000000, 10000000000000001000000),
   (-6534441665373379200000, 50000000000000000000000, 29999999999999999000000, 10000000000000001000000),
   (-6534441665373379200000, 29999999999999999000000, 50000000000000000000000, 10000000000000001000000),
   (-6534441665373379200000, 10000000000000001000000, 69999999999999996000000, 10000000000000001000000),
   (-6534441665373379200000, 50000000000000000000000, 10000000000000001000000, 29999999999999999000000),
   (-6534441665373379200000, 29999999999999999000000, 29999999999999999000000, 29999999999999999000000),
   (-6534441665373379200000, 10000000000000001000000, 50000000000000000000000, 29999999999999999000000),
   (-6534441665373379200000, 29999999999999999000000, 10000000000000001000000, 50000000000000000000000),
   (-6534441665373379200000, 10000000000000001000000, 29999999999999999000000, 50000000000000000000000),
   (-6534441665373379200000, 10000000000000001000000, 10000000000000001000000, 69999999999999996000000),
   (-6534441665373379200000, 50000000000000000000000, 10000000000000001000000, 10000000000000001000000),
   (-6534441665373379200000, 29999999999999999000000, 29999999999999999000000, 10000000000000001000000),
   (-6534441665373379200000, 10000000000000001000000, 50000000000000000000000, 10000000000000001000000),
   (-6534441665373379200000, 29999999999999999000000, 10000000000000001000000, 29999999999999999000000),
   (-6534441665373379200000, 10000000000000001000000, 29999999999999999000000, 29999999999999999000000),
   (-6534441665373379200000, 10000000000000001000000, 10000000000000001000000, 50000000000000000000000),
   (-6534441665373379200000, 29999999999999999000000, 10000000000000001000000, 10000000000000001000000),
   (-6534441665373379200000, 10000000000000001000000, 29999999999999999000000, 10000000000000001000000),
   (-6534441665373379200000, 10000000000000001000000, 10000000000000001000000, 29999999999999999000000),
   (-6534441665373379200000, 10000000000000001000000, 10000000000000001000000, 10000000000000001000000),
   (1167512871216574800000, 62500000000000000000000, 12500000000000000000000, 12500000000000000000000),
   (1167512871216574800000, 37500000000000000000000, 37500000000000000000000, 12500000000000000000000),
   (1167512871216574800000, 12500000000000000000000, 62500000000000000000000, 12500000000000000000000),
   (1167512871216574800000, 37500000000000000000000, 12500000000000000000000, 37500000000000000000000),
   (1167512871216574800000, 12500000000000000000000, 37500000000000000000000, 37500000000000000000000),
   (1167512871216574800000, 12500000000000000000000, 12500000000000000000000, 62500000000000000000000),
   (1167512871216574800000, 37500000000000000000000, 12500000000000000000000, 12500000000000000000000),
   (1167512871216574800000, 12500000000000000000000, 37500000000000000000000, 12500000000000000000000),
   (1167512871216574800000, 12500000000000000000000, 12500000000000000000000, 37500000000000000000000),
   (1167512871216574800000, 12500000000000000000000, 12500000000000000000000, 12500000000000000000000),
   (-66568587662337671000, 50000000000000000000000, 16666666666666666000000, 16666666666666666000000),
   (-66568587662337671000, 16666666666666666000000, 50000000000000000000000, 16666666666666666000000),
   (-66568587662337671000, 16666666666666666000000, 16666666666666666000000, 50000000000000000000000),
   (-66568587662337671000, 16666666666666666000000, 16666666666666666000000, 16666666666666666000000),
   (627082108563589840, 25000000000000000000000, 25000000000000000000000, 25000000000000000000000)]

/-- Gauss rule on the tetrahedron, number of points: 330 (`GeDiM/src/Quadrature/Quadrature_Gauss3D_Tetrahedron.cpp:3664-4986`, `:4989-6311`). The program repeats the table in every case. -/
def tetraTab15 : List (ℤ × ℕ × ℕ × ℕ) :=
  [(6431712410365701700000, 83333333333333337000000, 5555555555555555200000, 5555555555555555200000),
   (6431712410365701700000, 72222222222222221000000, 16666666666666666000000, 5555555555555555200000),
   (6431712410365701700000, 61111111111111116000000, 27777777777777779000000, 5555555555555555200000),
   (6431712410365701700000, 50000000000000000000000, 38888888888888890000000, 5555555555555555200000),
   (6431712410365701700000, 38888888888888890000000, 50000000000000000000000, 5555555555555555200000),
   (6431712410365701700000, 27777777777777779000000, 61111111111111116000000, 5555555555555555200000),
   (6431712410365701700000, 16666666666666666000000, 72222222222222221000000, 5555555555555555200000),
   (6431712410365701700000, 5555555555555555200000, 83333333333333337000000, 5555555555555555200000),
   (6431712410365701700000, 72222222222222221000000, 5555555555555555200000, 16666666666666666000000),
   (6431712410365701700000, 61111111111111116000000, 16666666666666666000000, 16666666666666666000000),
   (6431712410365701700000, 50000000000000000000000, 27777777777777779000000, 16666666666666666000000),
   (6431712410365701700000, 38888888888888890000000, 38888888888888890000000, 16666666666666666000000),
   (6431712410365701700000, 27777777777777779000000, 50000000000000000000000, 16666666666666666000000),
   (6431712410365701700000, 16666666666666666000000, 61111111111111116000000, 16666666666666666000000),
   (6431712410365701700000, 5555555555555555200000, 72222222222222221000000, 16666666666666666000000),
   (6431712410365701700000, 61111111111111116000000, 5555555555555555200000, 27777777777777779000000),
   (6431712410365701700000, 50000000000000000000000, 16666666666666666000000, 27777777777777779000000),
   (6431712410365701700000, 38888888888888890000000, 27777777777777779000000, 27777777777777779000000),
   (6431712410365701700000, 27777777777777779000000, 38888888888888890000000, 27777777777777779000000),
   (6431712410365701700000, 16666666666666666000000, 50000000000000000000000, 27777777777777779000000),
   (6431712410365701700000, 5555555555555555200000, 61111111111111116000000, 27777777777777779000000),
   (6431712410365701700000, 50000000000000000000000, 5555555555555555200000, 38888888888888890000000),
   (6431712410365701700000, 38888888888888890000000, 16666666666666666000000, 38888888888888890000000),
   (6431712410365701700000, 27777777777777779000000, 27777777777777779000000, 38888888888888890000000),
   (6431712410365701700000, 16666666666666666000000, 38888888888888890000000, 38888888888888890000000),
   (6431712410365701700000, 5555555555555555200000, 50000000000000000000000, 38888888888888890000000),
   (6431712410365701700000, 38888888888888890000000, 5555555555555555200000, 50000000000000000000000),
   (6431712410365701700000, 27777777777777779000000, 16666666666666666000000, 50000000000000000000000),
   (6431712410365701700000, 16666666666666666000000, 27777777777777779000000, 50000000000000000000000),
   (6431712410365701700000, 5555555555555555200000, 38888888888888890000000, 50000000000000000000000),
   (6431712410365701700000, 27777777777777779000000, 5555555555555555200000, 61111111111111116000000),
   (6431712410365701700000, 16666666666666666000000, 16666666666666666000000, 61111111111111116000000),
   (6431712410365701700000, 5555555555555555200000, 27777777777777779000000, 61111111111111116000000),
   (6431712410365701700000, 16666666666666666000000, 5555555555555555200000, 72222222222222221000000),
   (6431712410365701700000, 5555555555555555200000, 16666666666666666000000, 72222222222222221000000),
   (6431712410365701700000, 5555555555555555200000, 5555555555555555200000, 83333333333333337000000),
   (6431712410365701700000, 72222222222222221000000, 5555555555555555200000, 5555555555555555200000),
   (6431712410365701700000, 61111111111111116000000, 16666666666666666000000, 5555555555555555200000),
   (6431712410365701700000, 50000000000000000000000, 27777777777777779000000, 5555555555555555200000),
   (6431712410365701700000, 38888888888888890000000, 38888888888888890000000, 5555555555555555200000),
   (6431712410365701700000, 27777777777777779000000, 50000000000000000000000, 5555555555555555200000),
   (6431712410365701700000, 16666666666666666000000, 61111111111111116000000, 5555555555555555200000),
   (6431712410365701700000, 5555555555555555200000, 72222222222222221000000, 5555555555555555200000),
   (6431712410365701700000, 61111111111111116000000, 5555555555555555200000, 16666666666666666000000),
   (6431712410365701700000, 50000000000000000000000, 16666666666666666000000, 16666666666666666000000),
   (6431712410365701700000, 38888888888888890000000, 27777777777777779000000, 16666666666666666000000),
   (6431712410365701700000, 27777777777777779000000, 38888888888888890000000, 16666666666666666000000),
   (6431712410365701700000, 16666666666666666000000, 50000000000000000000000, 16666666666666666000000),
   (6431712410365701700000, 5555555555555555200000, 61111111111111116000000, 16666666666666666000000),
   (6431712410365701700000, 50000000000000000000000, 5555555555555555200000, 27777777777777779000000),
   (6431712410365701700000, 38888888888888890000000, 16666666666666666000000, 27777777777777779000000),
   (6431712410365701700000, 27777777777777779000000, 27777777777777779000000, 27777777777777779000000),
   (6431712410365701700000, 16666666666666666000000, 38888888888888890000000, 27777777777777779000000),
   (6431712410365701700000, 5555555555555555200000, 50000000000000000000000, 27777777777777779000000),
   (6431712410365701700000, 38888888888888890000000, 5555555555555555200000, 38888888888888890000000),
   (6431712410365701700000, 27777777777777779000000, 16666666666666666000000, 38888888888888890000000),
   (6431712410365701700000, 16666666666666666000000, 27777777777777779000000, 38888888888888890000000),
   (6431712410365701700000, 5555555555555555200000, 38888888888888890000000, 38888888888888890000000),
   (6431712410365701700000, 27777777777777779000000, 5555555555555555200000, 50000000000000000000000),
   (6431712410365701700000, 16666666666666666000000, 16666666666666666000000, 50000000000000000000000),
   (6431712410365701700000, 5555555555555555200000, 27777777777777779000000, 50000000000000000000000),
   (6431712410365701700000, 16666666666666666000000, 5555555555555555200000, 61111111111111116000000),
   (6431712410365701700000, 5555555555555555200000, 16666666666666666000000, 61111111111111116000000),
   (6431712410365701700000, 5555555555555555200000, 5555555555555555200000, 72222222222222221000000),
   (6431712410365701700000, 61111111111111116000000, 5555555555555555200000, 5555555555555555200000),
   (6431712410365701700000, 50000000000000000000000, 16666666666666666000000, 5555555555555555200000),
   (6431712410365701700000, 38888888888888890000000, 27777777777777779000000, 5555555555555555200000),
   (6431712410365701700000, 27777777777777779000000, 38888888888888890000000, 5555555555555555200000),
   (6431712410365701700000, 16666666666666666000000, 50000000000000000000000, 5555555555555555200000),
   (6431712410365701700000, 5555555555555555200000, 61111111111111116000000, 5555555555555555200000),
   (6431712410365701700000, 50000000000000000000000, 5555555555555555200000, 16666666666666666000000),
   (6431712410365701700000, 38888888888888890000000, 16666666666666666000000, 16666666666666666000000),
   (6431712410365701700000, 27777777777777779000000, 27777777777777779000000, 16666666666666666000000),
   (6431712410365701700000, 16666666666666666000000, 38888888888888890000000, 16666666666666666000000),
   (6431712410365701700000, 5555555555555555200000, 50000000000000000000000, 16666666666666666000000),
   (6431712410365701700000, 38888888888888890000000, 5555555555555555200000, 27777777777777779000000),
   (6431712410365701700000, 27777777777777779000000, 16666666666666666000000, 27777777777777779000000),
   (6431712410365701700000, 16666666666666666000000, 27777777777777779000000, 27777777777777779000000),
   (6431712410365701700000, 5555555555555555200000, 38888888888888890000000, 27777777777777779000000),
   (6431712410365701700000, 27777777777777779000000, 5555555555555555200000, 38888888888888890000000),
   (6431712410365701700000, 16666666666666666000000, 16666666666666666000000, 38888888888888890000000),
   (6431712410365701700000, 5555555555555555200000, 27777777777777779000000, 38888888888888890000000),
   (6431712410365701700000, 16666666666666666000000, 5555555555555555200000, 50000000000000000000000),
   (6431712410365701700000, 5555555555555555200000, 16666666666666666000000, 50000000000000000000000),
   (6431712410365701700000, 5555555555555555200000, 5555555555555555200000, 61111111111111116000000),
   (6431712410365701700000, 50000000000000000000000, 5555555555555555200000, 5555555555555555200000),
   (6431712410365701700000, 38888888888888890000000, 16666666666666666000000, 5555555555555555200000),
   (6431712410365701700000, 27777777777777779000000, 27777777777777779000000, 5555555555555555200000),
   (6431712410365701700000, 16666666666666666000000, 38888888888888890000000, 5555555555555555200000),
   (6431712410365701700000, 5555555555555555200000, 50000000000000000000000, 5555555555555555200000),
   (6431712410365701700000, 38888888888888890000000, 5555555555555555200000, 16666666666666666000000),
   (6431712410365701700000, 27777777777777779000000, 16666666666666666000000, 16666666666666666000000),
   (6431712410365701700000, 16666666666666666000000, 27777777777777779000000, 16666666666666666000000),
   (6431712410365701700000, 5555555555555555200000, 38888888888888890000000, 16666666666666666000000),
   (6431712410365701700000, 27777777777777779000000, 5555555555555555200000, 27777777777777779000000),
   (6431712410365701700000, 16666666666666666000000, 16666666666666666000000, 27777777777777779000000),
   (6431712410365701700000, 5555555555555555200000, 27777777777777779000000, 27777777777777779000000),
   (6431712410365701700000, 16666666666666666000000, 5555555555555555200000, 38888888888888890000000),
   (6431712410365701700000, 5555555555555555200000, 16666666666666666000000, 38888888888888890000000),
   (6431712410365701700000, 5555555555555555200000, 5555555555555555200000, 50000000000000000000000),
   (6431712410365701700000, 38888888888888890000000, 5555555555555555200000, 5555555555555555200000),
   (6431712410365701700000, 27777777777777779000000, 16666666666666666000000, 5555555555555555200000),
   (6431712410365701700000, 16666666666666666000000, 27777777777777779000000, 5555555555555555200000),
   (6431712410365701700000, 5555555555555555200000, 38888888888888890000000, 5555555555555555200000),
   (6431712410365701700000, 27777777777777779000000, 5555555555555555200000, 16666666666666666000000),
   (6431712410365701700000, 16666666666666666000000, 16666666666666666000000, 16666666666666666000000),
   (6431712410365701700000, 5555555555555555200000, 27777777777777779000000, 16666666666666666000000),
   (6431712410365701700000, 16666666666666666000000, 5555555555555555200000, 27777777777777779000000),
   (6431712410365701700000, 5555555555555555200000, 16666666666666666000000, 27777777777777779000000),
   (6431712410365701700000, 5555555555555555200000, 5555555555555555200000, 38888888888888890000000),
   (6431712410365701700000, 27777777777777779000000, 5555555555555555200000, 5555555555555555200000),
   (6431712410365701700000, 16666666666666666000000, 16666666666666666000000, 5555555555555555200000),
   (6431712410365701700000, 5555555555555555200000, 27777777777777779000000, 5555555555555555200000),
   (6431712410365701700000, 16666666666666666000000, 5555555555555555200000, 16666666666666666000000),
   (6431712410365701700000, 5555555555555555200000, 16666666666666666000000, 16666666666666666000000),
   (6431712410365701700000, 5555555555555555200000, 5555555555555555200000, 27777777777777779000000),
   (6431712410365701700000, 16666666666666666000000, 5555555555555555200000, 5555555555555555200000),
   (6431712410365701700000, 5555555555555555200000, 16666666666666666000000, 5555555555555555200000),
   (6431712410365701700000, 5555555555555555200000, 5555555555555555200000, 16666666666666666000000),
   (6431712410365701700000, 5555555555555555200000, 5555555555555555200000, 5555555555555555200000),
   (-19783871629747760000000, 81250000000000000000000, 6250000000000000000000, 6250000000000000000000),
   (-19783871629747760000000, 68750000000000000000000, 18750000000000000000000, 6250000000000000000000),
   (-19783871629747760000000, 56250000000000000000000, 31250000000000000000000, 6250000000000000000000),
   (-19783871629747760000000, 43750000000000000000000, 43750000000000000000000, 6250000000000000000000),
   (-19783871629747760000000, 31250000000000000000000, 56250000000000000000000, 6250000000000000000000),
   (-19783871629747760000000, 18750000000000000000000, 68750000000000000000000, 6250000000000000000000),
   (-19783871629747760000000, 6250000000000000000000, 81250000000000000000000, 6250000000000000000000),
   (-19783871629747760000000, 68750000000000000000000, 6250000000000000000000, 18750000000000000000000),
   (-19783871629747760000000, 56250000000000000000000, 18750000000000000000000, 18750000000000000000000),
   (-19783871629747760000000, 43750000000000000000000, 31250000000000000000000, 18750000000000000000000),
   (-19783871629747760000000, 31250000000000000000000, 43750000000000000000000, 18750000000000000000000),
   (-19783871629747760000000, 18750000000000000000000, 56250000000000000000000, 18750000000000000000000),
   (-19783871629747760000000, 6250000000000000000000, 68750000000000000000000, 18750000000000000000000),
   (-19783871629747760000000, 56250000000000000000000, 6250000000000000000000, 31250000000000000000000),
   (-19783871629747760000000, 43750000000000000000000, 18750000000000000000000, 31250000000000000000000),
   (-19783871629747760000000, 31250000000000000000000, 31250000000000000000000, 31250000000000000000000),
   (-19783871629747760000000, 18750000000000000000000, 43750000000000000000000, 31250000000000000000000),
   (-19783871629747760000000, 6250000000000000000000, 56250000000000000000000, 31250000000000000000000),
   (-19783871629747760000000, 43750000000000000000000, 6250000000000000000000, 43750000000000000000000),
   (-19783871629747760000000, 31250000000000000000000, 18750000000000000000000, 43750000000000000000000),
   (-19783871629747760000000, 18750000000000000000000, 31250000000000000000000, 43750000000000000000000),
   (-19783871629747760000000, 6250000000000000000000, 43750000000000000000000, 43750000000000000000000),
   (-19783871629747760000000, 31250000000000000000000, 6250000000000000000000, 56250000000000000000000),
   (-19783871629747760000000, 18750000000000000000000, 18750000000000000000000, 56250000000000000000000),
   (-19783871629747760000000, 6250000000000000000000, 31250000000000000000000, 56250000000000000000000),
   (-19783871629747760000000, 18750000000000000000000, 6250000000000000000000, 68750000000000000000000),
   (-19783871629747760000000, 6250000000000000000000, 18750000000000000000000, 68750000000000000000000),
   (-19783871629747760000000, 6250000000000000000000, 6250000000000000000000, 81250000000000000000000),
   (-19783871629747760000000, 68750000000000000000000, 6250000000000000000000, 6250000000000000000000),
   (-19783871629747760000000, 56250000000000000000000, 18750000000000000000000, 6250000000000000000000),
   (-19783871629747760000000, 43750000000000000000000, 31250000000000000000000, 6250000000000000000000),
   (-19783871629747760000000, 31250000000000000000000, 43750000000000000000000, 6250000000000000000000),
   (-19783871629747760000000, 18750000000000000000000, 56250000000000000000000, 6250000000000000000000),
   (-19783871629747760000000, 6250000000000000000000, 68750000000000000000000, 6250000000000000000000),
   (-19783871629747760000000, 56250000000000000000000, 6250000000000000000000, 18750000000000000000000),
   (-19783871629747760000000, 43750000000000000000000, 18750000000000000000000, 18750000000000000000000),
   (-19783871629747760000000, 31250000000000000000000, 31250000000000000000000, 18750000000000000000000),
   (-19783871629747760000000, 18750000000000000000000, 43750000000000000000000, 18750000000000000000000),
   (-19783871629747760000000, 6250000000000000000000, 56250000000000000000000, 18750000000000000000000),
   (-19783871629747760000000, 43750000000000000000000, 6250000000000000000000, 31250000000000000000000),
   (-19783871629747760000000, 31250000000000000000000, 18750000000000000000000, 31250000000000000000000),
   (-19783871629747760000000, 18750000000000000000000, 31250000000000000000000, 31250000000000000000000),
   (-19783871629747760000000, 6250000000000000000000, 43750000000000000000000, 31250000000000000000000),
   (-19783871629747760000000, 31250000000000000000000, 6250000000000000000000, 43750000000000000000000),
   (-19783871629747760000000, 18750000000000000000000, 18750000000000000000000, 43750000000000000000000),
   (-19783871629747760000000, 6250000000000000000000, 31250000000000000000000, 43750000000000000000000),
   (-19783871629747760000000, 18750000000000000000000, 6250000000000000000000, 56250000000000000000000),
   (-19783871629747760000000, 6250000000000000000000, 18750000000000000000000, 56250000000000000000000),
   (-19783871629747760000000, 6250000000000000000000, 6250000000000000000000, 68750000000000000000000),
   (-19783871629747760000000, 56250000000000000000000, 6250000000000000000000, 6250000000000000000000),
   (-19783871629747760000000, 43750000000000000000000, 18750000000000000000000, 6250000000000000000000),
   (-19783871629747760000000, 31250000000000000000000, 31250000000000000000000, 6250000000000000000000),
   (-19783871629747760000000, 18750000000000000000000, 43750000000000000000000, 6250000000000000000000),
   (-19783871629747760000000, 6250000000000000000000, 56250000000000000000000, 6250000000000000000000),
   (-19783871629747760000000, 43750000000000000000000, 6250000000000000000000, 18750000000000000000000),
   (-19783871629747760000000, 31250000000000000000000, 18750000000000000000000, 18750000000000000000000),
   (-19783871629747760000000, 18750000000000000000000, 31250000000000000000000, 18750000000000000000000),
   (-19783871629747760000000, 6250000000000000000000, 43750000000000000000000, 18750000000000000000000),
   (-19783871629747760000000, 31250000000000000000000, 6250000000000000000000, 31250000000000000000000),
   (-19783871629747760000000, 18750000000000000000000, 18750000000000000000000, 31250000000000000000000),
   (-19783871629747760000000, 6250000000000000000000, 31250000000000000000000, 31250000000000000000000),
   (-19783871629747760000000, 18750000000000000000000, 6250000000000000000000, 43750000000000000000000),
   (-19783871629747760000000, 6250000000000000000000, 18750000000000000000000, 43750000000000000000000),
   (-19783871629747760000000, 6250000000000000000000, 6250000000000000000000, 56250000000000000000000),
   (-19783871629747760000000, 43750000000000000000000, 6250000000000000000000, 6250000000000000000000),
   (-19783871629747760000000, 31250000000000000000000, 18750000000000000000000, 6250000000000000000000),
   (-19783871629747760000000, 18750000000000000000000, 31250000000000000000000, 6250000000000000000000),
   (-19783871629747760000000, 6250000000000000000000, 43750000000000000000000, 6250000000000000000000),
   (-19783871629747760000000, 31250000000000000000000, 6250000000000000000000, 18750000000000000000000),
   (-19783871629747760000000, 18750000000000000000000, 18750000000000000000000, 18750000000000000000000),
   (-19783871629747760000000, 6250000000000000000000, 31250000000000000000000, 18750000000000000000000),
   (-19783871629747760000000, 18750000000000000000000, 6250000000000000000000, 31250000000000000000000),
   (-19783871629747760000000, 6250000000000000000000, 18750000000000000000000, 31250000000000000000000),
   (-19783871629747760000000, 6250000000000000000000, 6250000000000000000000, 43750000000000000000000),
   (-19783871629747760000000, 31250000000000000000000, 6250000000000000000000, 6250000000000000000000),
   (-19783871629747760000000, 18750000000000000000000, 18750000000000000000000, 6250000000000000000000),
   (-19783871629747760000000, 6250000000000000000000, 31250000000000000000000, 6250000000000000000000),
   (-19783871629747760000000, 18750000000000000000000, 6250000000000000000000, 18750000000000000000000),
   (-19783871629747760000000, 6250000000000000000000, 18750000000000000000000, 18750000000000000000000),
   (-19783871629747760000000, 6250000000000000000000, 6250000000000000000000, 31250000000000000000000),
   (-19783871629747760000000, 18750000000000000000000, 6250000000000000000000, 6250000000000000000000),
   (-19783871629747760000000, 6250000000000000000000, 18750000000000000000000, 6250000000000000000000),
   (-19783871629747760000000, 6250000000000000000000, 6250000000000000000000, 18750000000000000000000),
   (-19783871629747760000000, 6250000000000000000000, 6250000000000000000000, 6250000000000000000000),
   (22690862620887398000000, 78571428571428570000000, 7142857142857142500000, 7142857142857142500000),
   (22690862620887398000000, 64285714285714290000000, 21428571428571427000000, 7142857142857142500000),
   (22690862620887398000000, 50000000000000000000000, 35714285714285715000000, 7142857142857142500000),
   (22690862620887398000000, 35714285714285715000000, 50000000000000000000000, 7142857142857142500000),
   (22690862620887398000000, 21428571428571427000000, 64285714285714290000000, 7142857142857142500000),
   (22690862620887398000000, 7142857142857142500000, 78571428571428570000000, 7142857142857142500000),
   (22690862620887398000000, 64285714285714290000000, 7142857142857142500000, 21428571428571427000000),
   (22690862620887398000000, 50000000000000000000000, 21428571428571427000000, 21428571428571427000000),
   (22690862620887398000000, 35714285714285715000000, 35714285714285715000000, 21428571428571427000000),
   (22690862620887398000000, 21428571428571427000000, 50000000000000000000000, 21428571428571427000000),
   (22690862620887398000000, 7142857142857142500000, 64285714285714290000000, 21428571428571427000000),
   (22690862620887398000000, 50000000000000000000000, 7142857142857142500000, 35714285714285715000000),
   (22690862620887398000000, 35714285714285715000000, 21428571428571427000000, 35714285714285715000000),
   (22690862620887398000000, 21428571428571427000000, 35714285714285715000000, 35714285714285715000000),
   (22690862620887398000000, 7142857142857142500000, 50000000000000000000000, 35714285714285715000000),
   (22690862620887398000000, 35714285714285715000000, 7142857142857142500000, 50000000000000000000000),
   (22690862620887398000000, 21428571428571427000000, 21428571428571427000000, 50000000000000000000000),
   (22690862620887398000000, 7142857142857142500000, 35714285714285715000000, 50000000000000000000000),
   (22690862620887398000000, 21428571428571427000000, 7142857142857142500000, 64285714285714290000000),
   (22690862620887398000000, 7142857142857142500000, 21428571428571427000000, 64285714285714290000000),
   (22690862620887398000000, 7142857142857142500000, 7142857142857142500000, 78571428571428570000000),
   (22690862620887398000000, 64285714285714290000000, 7142857142857142500000, 7142857142857142500000),
   (22690862620887398000000, 50000000000000000000000, 21428571428571427000000, 7142857142857142500000),
   (22690862620887398000000, 35714285714285715000000, 35714285714285715000000, 7142857142857142500000),
   (22690862620887398000000, 21428571428571427000000, 50000000000000000000000, 7142857142857142500000),
   (22690862620887398000000, 7142857142857142500000, 64285714285714290000000, 7142857142857142500000),
   (22690862620887398000000, 50000000000000000000000, 7142857142857142500000, 21428571428571427000000),
   (22690862620887398000000, 35714285714285715000000, 21428571428571427000000, 21428571428571427000000),
   (22690862620887398000000, 21428571428571427000000, 35714285714285715000000, 21428571428571427000000),
   (22690862620887398000000, 7142857142857142500000, 50000000000000000000000, 21428571428571427000000),
   (22690862620887398000000, 35714285714285715000000, 7142857142857142500000, 35714285714285715000000),
   (22690862620887398000000, 21428571428571427000000, 21428571428571427000000, 35714285714285715000000),
   (22690862620887398000000, 7142857142857142500000, 35714285714285715000000, 35714285714285715000000),
   (22690862620887398000000, 21428571428571427000000, 7142857142857142500000, 50000000000000000000000),
   (22690862620887398000000, 7142857142857142500000, 21428571428571427000000, 50000000000000000000000),
   (22690862620887398000000, 7142857142857142500000, 7142857142857142500000, 64285714285714290000000),
   (22690862620887398000000, 50000000000000000000000, 7142857142857142500000, 7142857142857142500000),
   (22690862620887398000000, 35714285714285715000000, 21428571428571427000000, 7142857142857142500000),
   (22690862620887398000000, 21428571428571427000000, 35714285714285715000000, 7142857142857142500000),
   (22690862620887398000000, 7142857142857142500000, 50000000000000000000000, 7142857142857142500000),
   (22690862620887398000000, 35714285714285715000000, 7142857142857142500000, 21428571428571427000000),
   (22690862620887398000000, 21428571428571427000000, 21428571428571427000000, 21428571428571427000000),
   (22690862620887398000000, 7142857142857142500000, 35714285714285715000000, 21428571428571427000000),
   (22690862620887398000000, 21428571428571427000000, 7142857142857142500000, 35714285714285715000000),
   (22690862620887398000000, 7142857142857142500000, 21428571428571427000000, 35714285714285715000000),
   (22690862620887398000000, 7142857142857142500000, 7142857142857142500000, 50000000000000000000000),
   (22690862620887398000000, 35714285714285715000000, 7142857142857142500000, 7142857142857142500000),
   (22690862620887398000000, 21428571428571427000000, 21428571428571427000000, 7142857142857142500000),
   (22690862620887398000000, 7142857142857142500000, 35714285714285715000000, 7142857142857142500000),
   (22690862620887398000000, 21428571428571427000000, 7142857142857142500000, 21428571428571427000000),
   (22690862620887398000000, 7142857142857142500000, 21428571428571427000000, 21428571428571427000000),
   (22690862620887398000000, 7142857142857142500000, 7142857142857142500000, 35714285714285715000000),
   (22690862620887398000000, 21428571428571427000000, 7142857142857142500000, 7142857142857142500000),
   (22690862620887398000000, 7142857142857142500000, 21428571428571427000000, 7142857142857142500000),
   (22690862620887398000000, 7142857142857142500000, 7142857142857142500000, 21428571428571427000000),
   (22690862620887398000000, 7142857142857142500000, 7142857142857142500000, 7142857142857142500000),
   (-11985271870986156000000, 75000000000000000000000, 8333333333333332900000, 8333333333333332900000),
   (-11985271870986156000000, 58333333333333337000000, 25000000000000000000000, 8333333333333332900000),
   (-11985271870986156000000, 41666666666666669000000, 41666666666666669000000, 8333333333333332900000),
   (-11985271870986156000000, 25000000000000000000000, 58333333333333337000000, 8333333333333332900000),
   (-11985271870986156000000, 8333333333333332900000, 75000000000000000000000, 8333333333333332900000),
   (-11985271870986156000000, 58333333333333337000000, 8333333333333332900000, 25000000000000000000000),
   (-11985271870986156000000, 41666666666666669000000, 25000000000000000000000, 25000000000000000000000),
   (-11985271870986156000000, 25000000000000000000000, 41666666666666669000000, 25000000000000000000000),
   (-11985271870986156000000, 8333333333333332900000, 58333333333333337000000, 25000000000000000000000),
   (-11985271870986156000000, 41666666666666669000000, 8333333333333332900000, 41666666666666669000000),
   (-11985271870986156000000, 25000000000000000000000, 25000000000000000000000, 41666666666666669000000),
   (-11985271870986156000000, 8333333333333332900000, 41666666666666669000000, 41666666666666669000000),
   (-11985271870986156000000, 25000000000000000000000, 8333333333333332900000, 58333333333333337000000),
   (-11985271870986156000000, 8333333333333332900000, 25000000000000000000000, 58333333333333337000000),
   (-11985271870986156000000, 8333333333333332900000, 8333333333333332900000, 75000000000000000000000),
   (-11985271870986156000000, 58333333333333337000000, 8333333333333332900000, 8333333333333332900000),
   (-11985271870986156000000, 41666666666666669000000, 25000000000000000000000, 8333333333333332900000),
   (-11985271870986156000000, 25000000000000000000000, 41666666666666669000000, 8333333333333332900000),
   (-11985271870986156000000, 8333333333333332900000, 58333333333333337000000, 8333333333333332900000),
   (-11985271870986156000000, 41666666666666669000000, 8333333333333332900000, 25000000000000000000000),
   (-11985271870986156000000, 25000000000000000000000, 25000000000000000000000, 25000000000000000000000),
   (-11985271870986156000000, 8333333333333332900000, 41666666666666669000000, 25000000000000000000000),
   (-11985271870986156000000, 25000000000000000000000, 8333333333333332900000, 41666666666666669000000),
   (-11985271870986156000000, 8333333333333332900000, 25000000000000000000000, 41666666666666669000000),
   (-11985271870986156000000, 8333333333333332900000, 8333333333333332900000, 58333333333333337000000),
   (-11985271870986156000000, 41666666666666669000000, 8333333333333332900000, 8333333333333332900000),
   (-11985271870986156000000, 25000000000000000000000, 25000000000000000000000, 8333333333333332900000),
   (-11985271870986156000000, 8333333333333332900000, 41666666666666669000000, 8333333333333332900000),
   (-11985271870986156000000, 25000000000000000000000, 8333333333333332900000, 25000000000000000000000),
   (-11985271870986156000000, 8333333333333332900000, 25000000000000000000000, 25000000000000000000000),
   (-11985271870986156000000, 8333333333333332900000, 8333333333333332900000, 41666666666666669000000),
   (-11985271870986156000000, 25000000000000000000000, 8333333333333332900000, 8333333333333332900000),
   (-11985271870986156000000, 8333333333333332900000, 25000000000000000000000, 8333333333333332900000),
   (-11985271870986156000000, 8333333333333332900000, 8333333333333332900000, 25000000000000000000000),
   (-11985271870986156000000, 8333333333333332900000, 8333333333333332900000, 8333333333333332900000),
   (2917161457755973100000, 69999999999999996000000, 10000000000000001000000, 10000000000000001000000),
   (2917161457755973100000, 50000000000000000000000, 29999999999999999000000, 10000000000000001000000),
   (2917161457755973100000, 29999999999999999000000, 50000000000000000000000, 10000000000000001000000),
   (2917161457755973100000, 10000000000000001000000, 69999999999999996000000, 10000000000000001000000),
   (2917161457755973100000, 50000000000000000000000, 10000000000000001000000, 29999999999999999000000),
   (2917161457755973100000, 29999999999999999000000, 29999999999999999000000, 29999999999999999000000),
   (2917161457755973100000, 10000000000000001000000, 50000000000000000000000, 29999999999999999000000),
   (2917161457755973100000, 29999999999999999000000, 10000000000000001000000, 50000000000000000000000),
   (2917161457755973100000, 10000000000000001000000, 29999999999999999000000, 50000000000000000000000),
   (2917161457755973100000, 10000000000000001000000, 10000000000000001000000, 69999999999999996000000),
   (2917161457755973100000, 50000000000000000000000, 10000000000000001000000, 10000000000000001000000),
   (2917161457755973100000, 29999999999999999000000, 29999999999999999000000, 10000000000000001000000),
   (2917161457755973100000, 10000000000000001000000, 50000000000000000000000, 10000000000000001000000),
   (2917161457755973100000, 29999999999999999000000, 10000000000000001000000, 29999999999999999000000),
   (2917161457755973100000, 10000000000000001000000, 29999999999999999000000, 29999999999999999000000),
   (2917161457755973100000, 10000000000000001000000, 10000000000000001000000, 50000000000000000000000),
   (2917161457755973100000, 29999999999999999000000, 10000000000000001000000, 10000000000000001000000),
   (2917161457755973100000, 10000000000000001000000, 29999999999999999000000, 10000000000000001000000),
   (2917161457755973100000, 10000000000000001000000, 10000000000000001000000, 29999999999999999000000),
   (2917161457755973100000, 10000000000000001000000, 10000000000000001000000, 10000000000000001000000),
   (-287387783684079930000, 62500000000000000000000, 12500000000000000000000, 12500000000000000000000),
   (-287387783684079930000, 37500000000000000000000, 37500000000000000000000, 12500000000000000000000),
   (-287387783684079930000, 12500000000000000000000, 62500000000000000000000, 12500000000000000000000),
   (-287387783684079930000, 37500000000000000000000, 12500000000000000000000, 37500000000000000000000),
   (-287387783684079930000, 12500000000000000000000, 37500000000000000000000, 37500000000000000000000),
   (-287387783684079930000, 12500000000000000000000, 12500000000000000000000, 62500000000000000000000),
   (-287387783684079930000, 37500000000000000000000, 12500000000000000000000, 12500000000000000000000),
   (-287387783684079930000, 12500000000000000000000, 37500000000000000000000, 12500000000000000000000),
   (-287387783684079930000, 12500000000000000000000, 12500000000000000000000, 37500000000000000000000),
   (-287387783684079930000, 12500000000000000000000, 12500000000000000000000, 12500000000000000000000),
   (8321073457792208800, 50000000000000000000000, 16666666666666666000000, 16666666666666666000000),
   (8321073457792208800, 16666666666666666000000, 50000000000000000000000, 16666666666666666000000),
   (8321073457792208800, 16666666666666666000000, 16666666666666666000000, 50000000000000000000000),
   (8321073457792208800, 16666666666666666000000, 16666666666666666000000, 16666666666666666000000),
   (-32575693951355315, 25000000000000000000000, 25000000000000000000000, 25000000000000000000000)]

end Verif
