import Mathlib.Data.Nat.Notation
import Mathlib.Data.Int.Notation

/-
Tables of the quadrature rules: Gauss rule on the square.

A decimal constant c of the source is stored as the integer c * 10^23; a row is (weight, x, y). The
rounding of the constants to doubles is left out.
-/
namespace Verif

/-- Gauss rule on the square, number of points: 1 (`GeDiM/src/Quadrature/Quadrature_Gauss2D_Square.cpp:26-32`). -/
def squareTab1 : List (ℕ × ℕ × ℕ) :=
  [(100000000000000000000000, 50000000000000000000000, 50000000000000000000000)]

/-- Gauss rule on the square, number of points: 4 (`GeDiM/src/Quadrature/Quadrature_Gauss2D_Square.cpp:35-50`). -/
def squareTab3 : List (ℕ × ℕ × ℕ) :=
  [(25000000000000000000000, 21132486540518713000000, 21132486540518713000000),
   (25000000000000000000000, 78867513459481287000000, 21132486540518713000000),
   (25000000000000000000000, 21132486540518713000000, 78867513459481287000000),
   (25000000000000000000000, 78867513459481287000000, 78867513459481287000000)]

/-- Gauss rule on the square, number of points: 9 (`GeDiM/src/Quadrature/Quadrature_Gauss2D_Square.cpp:53-83`). -/
def squareTab5 : List (ℕ × ℕ × ℕ) :=
  [(7716049382716050300000, 11270166537925830000000, 11270166537925830000000),
   (12345679012345678000000, 50000000000000000000000, 11270166537925830000000),
   (7716049382716050300000, 88729833462074170000000, 11270166537925830000000),
   (12345679012345678000000, 11270166537925830000000, 50000000000000000000000),
   (19753086419753085000000, 50000000000000000000000, 50000000000000000000000),
   (12345679012345678000000, 88729833462074170000000, 50000000000000000000000),
   (7716049382716050300000, 11270166537925830000000, 88729833462074170000000),
   (12345679012345678000000, 50000000000000000000000, 88729833462074170000000),
   (7716049382716050300000, 88729833462074170000000, 88729833462074170000000)]

/-- Gauss rule on the square, number of points: 16 (`GeDiM/src/Quadrature/Quadrature_Gauss2D_Square.cpp:86-137`). -/
def squareTab7 : List (ℕ × ℕ × ℕ) :=
  [(3025074832140050100000, 6943184420297371400000, 6943184420297371400000),
   (5671296296296295800000, 33000947820757187000000, 6943184420297371400000),
   (5671296296296295800000, 66999052179242813000000, 6943184420297371400000),
   (3025074832140050100000, 93056815579702623000000, 6943184420297371400000),
   (5671296296296295800000, 6943184420297371400000, 33000947820757187000000),
   (10632332575267356000000, 33000947820757187000000, 33000947820757187000000),
   (10632332575267356000000, 66999052179242813000000, 33000947820757187000000),
   (5671296296296295800000, 93056815579702623000000, 33000947820757187000000),
   (5671296296296295800000, 6943184420297371400000, 66999052179242813000000),
   (10632332575267356000000, 33000947820757187000000, 66999052179242813000000),
   (10632332575267356000000, 66999052179242813000000, 66999052179242813000000),
   (5671296296296295800000, 93056815579702623000000, 66999052179242813000000),
   (3025074832140050100000, 6943184420297371400000, 93056815579702623000000),
   (5671296296296295800000, 33000947820757187000000, 93056815579702623000000),
   (5671296296296295800000, 66999052179242813000000, 93056815579702623000000),
   (3025074832140050100000, 93056815579702623000000, 93056815579702623000000)]

/-- Gauss rule on the square, number of points: 25 (`GeDiM/src/Quadrature/Quadrature_Gauss2D_Square.cpp:140-218`). -/
def squareTab9 : List (ℕ × ℕ × ℕ) :=
  [(1403358721560715900000, 4691007703066801800000, 4691007703066801800000),
   (2835000000000000000000, 23076534494715845000000, 4691007703066801800000),
   (3369626809688022800000, 50000000000000000000000, 4691007703066801800000),
   (2835000000000000000000, 76923465505284150000000, 4691007703066801800000),
   (1403358721560715900000, 95308992296933193000000, 4691007703066801800000),
   (2835000000000000000000, 4691007703066801800000, 23076534494715845000000),
   (5727135105599778100000, 23076534494715845000000, 23076534494715845000000),
   (6807163313768767300000, 50000000000000000000000, 23076534494715845000000),
   (5727135105599778100000, 76923465505284150000000, 23076534494715845000000),
   (2835000000000000000000, 95308992296933193000000, 23076534494715845000000),
   (3369626809688022800000, 4691007703066801800000, 50000000000000000000000),
   (6807163313768767300000, 23076534494715845000000, 50000000000000000000000),
   (8090864197530864300000, 50000000000000000000000, 50000000000000000000000),
   (6807163313768767300000, 76923465505284150000000, 50000000000000000000000),
   (3369626809688022800000, 95308992296933193000000, 50000000000000000000000),
   (2835000000000000000000, 4691007703066801800000, 76923465505284150000000),
   (5727135105599778100000, 23076534494715845000000, 76923465505284150000000),
   (6807163313768767300000, 50000000000000000000000, 76923465505284150000000),
   (5727135105599778100000, 76923465505284150000000, 76923465505284150000000),
   (2835000000000000000000, 95308992296933193000000, 76923465505284150000000),
   (1403358721560715900000, 4691007703066801800000, 95308992296933193000000),
   (2835000000000000000000, 23076534494715845000000, 95308992296933193000000),
   (3369626809688022800000, 50000000000000000000000, 95308992296933193000000),
   (2835000000000000000000, 76923465505284150000000, 95308992296933193000000),
   (1403358721560715900000, 95308992296933193000000, 95308992296933193000000)]

/-- Gauss rule on the square, number of points: 36 (`GeDiM/src/Quadrature/Quadrature_Gauss2D_Square.cpp:221-332`). -/
def squareTab11 : List (ℕ × ℕ × ℕ) :=
  [(733802042224510060000, 3376524289842397500000, 3376524289842397500000),
   (1545182334309583300000, 16939530676686776000000, 3376524289842397500000),
   (2004127932945165600000, 38069040695840156000000, 3376524289842397500000),
   (2004127932945165600000, 61930959304159849000000, 3376524289842397500000),
   (1545182334309583300000, 83060469323313224000000, 3376524289842397500000),
   (733802042224510060000, 96623475710157603000000, 3376524289842397500000),
   (1545182334309583300000, 3376524289842397500000, 16939530676686776000000),
   (3253722814704185900000, 16939530676686776000000, 16939530676686776000000),
   (4220134177189695900000, 38069040695840156000000, 16939530676686776000000),
   (4220134177189695900000, 61930959304159849000000, 16939530676686776000000),
   (3253722814704185900000, 83060469323313224000000, 16939530676686776000000),
   (1545182334309583300000, 96623475710157603000000, 16939530676686776000000),
   (2004127932945165600000, 3376524289842397500000, 38069040695840156000000),
   (4220134177189695900000, 16939530676686776000000, 38069040695840156000000),
   (5473586254182414400000, 38069040695840156000000, 38069040695840156000000),
   (5473586254182414400000, 61930959304159849000000, 38069040695840156000000),
   (4220134177189695900000, 83060469323313224000000, 38069040695840156000000),
   (2004127932945165600000, 96623475710157603000000, 38069040695840156000000),
   (2004127932945165600000, 3376524289842397500000, 61930959304159849000000),
   (4220134177189695900000, 16939530676686776000000, 61930959304159849000000),
   (5473586254182414400000, 38069040695840156000000, 61930959304159849000000),
   (5473586254182414400000, 61930959304159849000000, 61930959304159849000000),
   (4220134177189695900000, 83060469323313224000000, 61930959304159849000000),
   (2004127932945165600000, 96623475710157603000000, 61930959304159849000000),
   (1545182334309583300000, 3376524289842397500000, 83060469323313224000000),
   (3253722814704185900000, 16939530676686776000000, 83060469323313224000000),
   (4220134177189695900000, 38069040695840156000000, 83060469323313224000000),
   (4220134177189695900000, 61930959304159849000000, 83060469323313224000000),
   (3253722814704185900000, 83060469323313224000000, 83060469323313224000000),
   (1545182334309583300000, 96623475710157603000000, 83060469323313224000000),
   (733802042224510060000, 3376524289842397500000, 96623475710157603000000),
   (1545182334309583300000, 16939530676686776000000, 96623475710157603000000),
   (2004127932945165600000, 38069040695840156000000, 96623475710157603000000),
   (2004127932945165600000, 61930959304159849000000, 96623475710157603000000),
   (1545182334309583300000, 83060469323313224000000, 96623475710157603000000),
   (733802042224510060000, 96623475710157603000000, 96623475710157603000000)]

/-- Gauss rule on the square, number of points: 49 (`GeDiM/src/Quadrature/Quadrature_Gauss2D_Square.cpp:335-485`). -/
def squareTab13 : List (ℕ × ℕ × ℕ) :=
  [(419158911593833260000, 2544604382862075700000, 2544604382862075700000),
   (905441078855986040000, 12923440720030277000000, 2544604382862075700000),
   (1236031279297828400000, 29707742431130141000000, 2544604382862075700000),
   (1352985768948189600000, 50000000000000000000000, 2544604382862075700000),
   (1236031279297828400000, 70292257568869854000000, 2544604382862075700000),
   (905441078855986040000, 87076559279969723000000, 2544604382862075700000),
   (419158911593833260000, 97455395617137919000000, 2544604382862075700000),
   (905441078855986040000, 2544604382862075700000, 12923440720030277000000),
   (1955877650704237700000, 12923440720030277000000, 12923440720030277000000),
   (2669998093972613900000, 29707742431130141000000, 12923440720030277000000),
   (2922635927398156000000, 50000000000000000000000, 12923440720030277000000),
   (2669998093972613900000, 70292257568869854000000, 12923440720030277000000),
   (1955877650704237700000, 87076559279969723000000, 12923440720030277000000),
   (905441078855986040000, 97455395617137919000000, 12923440720030277000000),
   (1236031279297828400000, 2544604382862075700000, 29707742431130141000000),
   (2669998093972613900000, 12923440720030277000000, 29707742431130141000000),
   (3644854686718541900000, 29707742431130141000000, 29707742431130141000000),
   (3989734405277977500000, 50000000000000000000000, 29707742431130141000000),
   (3644854686718541900000, 70292257568869854000000, 29707742431130141000000),
   (2669998093972613900000, 87076559279969723000000, 29707742431130141000000),
   (1236031279297828400000, 97455395617137919000000, 29707742431130141000000),
   (1352985768948189600000, 2544604382862075700000, 50000000000000000000000),
   (2922635927398156000000, 12923440720030277000000, 50000000000000000000000),
   (3989734405277977500000, 29707742431130141000000, 50000000000000000000000),
   (4367246980424823600000, 50000000000000000000000, 50000000000000000000000),
   (3989734405277977500000, 70292257568869854000000, 50000000000000000000000),
   (2922635927398156000000, 87076559279969723000000, 50000000000000000000000),
   (1352985768948189600000, 97455395617137919000000, 50000000000000000000000),
   (1236031279297828400000, 2544604382862075700000, 70292257568869854000000),
   (2669998093972613900000, 12923440720030277000000, 70292257568869854000000),
   (3644854686718541900000, 29707742431130141000000, 70292257568869854000000),
   (3989734405277977500000, 50000000000000000000000, 70292257568869854000000),
   (3644854686718541900000, 70292257568869854000000, 70292257568869854000000),
   (2669998093972613900000, 87076559279969723000000, 70292257568869854000000),
   (1236031279297828400000, 97455395617137919000000, 70292257568869854000000),
   (905441078855986040000, 2544604382862075700000, 87076559279969723000000),
   (1955877650704237700000, 12923440720030277000000, 87076559279969723000000),
   (2669998093972613900000, 29707742431130141000000, 87076559279969723000000),
   (2922635927398156000000, 50000000000000000000000, 87076559279969723000000),
   (2669998093972613900000, 70292257568869854000000, 87076559279969723000000),
   (1955877650704237700000, 87076559279969723000000, 87076559279969723000000),
   (905441078855986040000, 97455395617137919000000, 87076559279969723000000),
   (419158911593833260000, 2544604382862075700000, 97455395617137919000000),
   (905441078855986040000, 12923440720030277000000, 97455395617137919000000),
   (1236031279297828400000, 29707742431130141000000, 97455395617137919000000),
   (1352985768948189600000, 50000000000000000000000, 97455395617137919000000),
   (1236031279297828400000, 70292257568869854000000, 97455395617137919000000),
   (905441078855986040000, 87076559279969723000000, 97455395617137919000000),
   (419158911593833260000, 97455395617137919000000, 97455395617137919000000)]

/-- Gauss rule on the square, number of points: 64 (`GeDiM/src/Quadrature/Quadrature_Gauss2D_Square.cpp:488-683`). -/
def squareTab15 : List (ℕ × ℕ × ℕ) :=
  [(256180413987300600000, 1985507175123191200000, 1985507175123191200000),
   (562782665411370830000, 10166676129318664000000, 1985507175123191200000),
   (793901614669548050000, 23723379504183550000000, 1985507175123191200000),
   (917848713191186940000, 40828267875217511000000, 1985507175123191200000),
   (917848713191186940000, 59171732124782495000000, 1985507175123191200000),
   (793901614669548050000, 76276620495816450000000, 1985507175123191200000),
   (562782665411370830000, 89833323870681336000000, 1985507175123191200000),
   (256180413987300600000, 98014492824876809000000, 1985507175123191200000),
   (562782665411370830000, 1985507175123191200000, 10166676129318664000000),
   (1236333112113823100000, 10166676129318664000000, 10166676129318664000000),
   (1744060210630574800000, 23723379504183550000000, 10166676129318664000000),
   (2016349873178593200000, 40828267875217511000000, 10166676129318664000000),
   (2016349873178593200000, 59171732124782495000000, 10166676129318664000000),
   (1744060210630574800000, 76276620495816450000000, 10166676129318664000000),
   (1236333112113823100000, 89833323870681336000000, 10166676129318664000000),
   (562782665411370830000, 98014492824876809000000, 10166676129318664000000),
   (793901614669548050000, 1985507175123191200000, 23723379504183550000000),
   (1744060210630574800000, 10166676129318664000000, 23723379504183550000000),
   (2460296491698854200000, 23723379504183550000000, 23723379504183550000000),
   (2844407829948204400000, 40828267875217511000000, 23723379504183550000000),
   (2844407829948204400000, 59171732124782495000000, 23723379504183550000000),
   (2460296491698854200000, 76276620495816450000000, 23723379504183550000000),
   (1744060210630574800000, 89833323870681336000000, 23723379504183550000000),
   (793901614669548050000, 98014492824876809000000, 23723379504183550000000),
   (917848713191186940000, 1985507175123191200000, 40828267875217511000000),
   (2016349873178593200000, 10166676129318664000000, 40828267875217511000000),
   (2844407829948204400000, 23723379504183550000000, 40828267875217511000000),
   (3288488168141064800000, 40828267875217511000000, 40828267875217511000000),
   (3288488168141064800000, 59171732124782495000000, 40828267875217511000000),
   (2844407829948204400000, 76276620495816450000000, 40828267875217511000000),
   (2016349873178593200000, 89833323870681336000000, 40828267875217511000000),
   (917848713191186940000, 98014492824876809000000, 40828267875217511000000),
   (917848713191186940000, 1985507175123191200000, 59171732124782495000000),
   (2016349873178593200000, 10166676129318664000000, 59171732124782495000000),
   (2844407829948204400000, 23723379504183550000000, 59171732124782495000000),
   (3288488168141064800000, 40828267875217511000000, 59171732124782495000000),
   (3288488168141064800000, 59171732124782495000000, 59171732124782495000000),
   (2844407829948204400000, 76276620495816450000000, 59171732124782495000000),
   (2016349873178593200000, 89833323870681336000000, 59171732124782495000000),
   (917848713191186940000, 98014492824876809000000, 59171732124782495000000),
   (793901614669548050000, 1985507175123191200000, 76276620495816450000000),
   (1744060210630574800000, 10166676129318664000000, 76276620495816450000000),
   (2460296491698854200000, 23723379504183550000000, 76276620495816450000000),
   (2844407829948204400000, 40828267875217511000000, 76276620495816450000000),
   (2844407829948204400000, 59171732124782495000000, 76276620495816450000000),
   (2460296491698854200000, 76276620495816450000000, 76276620495816450000000),
   (1744060210630574800000, 89833323870681336000000, 76276620495816450000000),
   (793901614669548050000, 98014492824876809000000, 76276620495816450000000),
   (562782665411370830000, 1985507175123191200000, 89833323870681336000000),
   (1236333112113823100000, 10166676129318664000000, 89833323870681336000000),
   (1744060210630574800000, 23723379504183550000000, 89833323870681336000000),
   (2016349873178593200000, 40828267875217511000000, 89833323870681336000000),
   (2016349873178593200000, 59171732124782495000000, 89833323870681336000000),
   (1744060210630574800000, 76276620495816450000000, 89833323870681336000000),
   (1236333112113823100000, 89833323870681336000000, 89833323870681336000000),
   (562782665411370830000, 98014492824876809000000, 89833323870681336000000),
   (256180413987300600000, 1985507175123191200000, 98014492824876809000000),
   (562782665411370830000, 10166676129318664000000, 98014492824876809000000),
   (793901614669548050000, 23723379504183550000000, 98014492824876809000000),
   (917848713191186940000, 40828267875217511000000, 98014492824876809000000),
   (917848713191186940000, 59171732124782495000000, 98014492824876809000000),
   (793901614669548050000, 76276620495816450000000, 98014492824876809000000),
   (562782665411370830000, 89833323870681336000000, 98014492824876809000000),
   (256180413987300600000, 98014492824876809000000, 98014492824876809000000)]

/-- Gauss rule on the square, number of points: 81 (`GeDiM/src/Quadrature/Quadrature_Gauss2D_Square.cpp:686-932`). -/
def squareTab17 : List (ℕ × ℕ × ℕ) :=
  [(165138155088700570000, 1591988024618695700000, 1591988024618695700000),
   (367051719227948560000, 8198444633668211500000, 1591988024618695700000),
   (529524373765813490000, 19331428364970482000000, 1591988024618695700000),
   (634645441073794850000, 33787328829809554000000, 1591988024618695700000),
   (671000039766205670000, 50000000000000000000000, 1591988024618695700000),
   (634645441073794850000, 66212671170190451000000, 1591988024618695700000),
   (529524373765813490000, 80668571635029518000000, 1591988024618695700000),
   (367051719227948560000, 91801555366331788000000, 1591988024618695700000),
   (165138155088700570000, 98408011975381304000000, 1591988024618695700000),
   (367051719227948560000, 1591988024618695700000, 8198444633668211500000),
   (815843949060875500000, 8198444633668211500000, 8198444633668211500000),
   (1176971074064904300000, 19331428364970482000000, 8198444633668211500000),
   (1410623124142285900000, 33787328829809554000000, 8198444633668211500000),
   (1491428301750840800000, 50000000000000000000000, 8198444633668211500000),
   (1410623124142285900000, 66212671170190451000000, 8198444633668211500000),
   (1176971074064904300000, 80668571635029518000000, 8198444633668211500000),
   (815843949060875500000, 91801555366331788000000, 8198444633668211500000),
   (367051719227948560000, 98408011975381304000000, 8198444633668211500000),
   (529524373765813490000, 1591988024618695700000, 19331428364970482000000),
   (1176971074064904300000, 8198444633668211500000, 19331428364970482000000),
   (1697948376990574700000, 19331428364970482000000, 19331428364970482000000),
   (2035024731670412000000, 33787328829809554000000, 19331428364970482000000),
   (2151597707163363200000, 50000000000000000000000, 19331428364970482000000),
   (2035024731670412000000, 66212671170190451000000, 19331428364970482000000),
   (1697948376990574700000, 80668571635029518000000, 19331428364970482000000),
   (1176971074064904300000, 91801555366331788000000, 19331428364970482000000),
   (529524373765813490000, 98408011975381304000000, 19331428364970482000000),
   (634645441073794850000, 1591988024618695700000, 33787328829809554000000),
   (1410623124142285900000, 8198444633668211500000, 33787328829809554000000),
   (2035024731670412000000, 19331428364970482000000, 33787328829809554000000),
   (2439017413385836900000, 33787328829809554000000, 33787328829809554000000),
   (2578732431455483700000, 50000000000000000000000, 33787328829809554000000),
   (2439017413385836900000, 66212671170190451000000, 33787328829809554000000),
   (2035024731670412000000, 80668571635029518000000, 33787328829809554000000),
   (1410623124142285900000, 91801555366331788000000, 33787328829809554000000),
   (634645441073794850000, 98408011975381304000000, 33787328829809554000000),
   (671000039766205670000, 1591988024618695700000, 50000000000000000000000),
   (1491428301750840800000, 8198444633668211500000, 50000000000000000000000),
   (2151597707163363200000, 19331428364970482000000, 50000000000000000000000),
   (2578732431455483700000, 33787328829809554000000, 50000000000000000000000),
   (2726450789791201900000, 50000000000000000000000, 50000000000000000000000),
   (2578732431455483700000, 66212671170190451000000, 50000000000000000000000),
   (2151597707163363200000, 80668571635029518000000, 50000000000000000000000),
   (1491428301750840800000, 91801555366331788000000, 50000000000000000000000),
   (671000039766205670000, 98408011975381304000000, 50000000000000000000000),
   (634645441073794850000, 1591988024618695700000, 66212671170190451000000),
   (1410623124142285900000, 8198444633668211500000, 66212671170190451000000),
   (2035024731670412000000, 19331428364970482000000, 66212671170190451000000),
   (2439017413385836900000, 33787328829809554000000, 66212671170190451000000),
   (2578732431455483700000, 50000000000000000000000, 66212671170190451000000),
   (2439017413385836900000, 66212671170190451000000, 66212671170190451000000),
   (2035024731670412000000, 80668571635029518000000, 66212671170190451000000),
   (1410623124142285900000, 91801555366331788000000, 66212671170190451000000),
   (634645441073794850000, 98408011975381304000000, 66212671170190451000000),
   (529524373765813490000, 1591988024618695700000, 80668571635029518000000),
   (1176971074064904300000, 8198444633668211500000, 80668571635029518000000),
   (1697948376990574700000, 19331428364970482000000, 80668571635029518000000),
   (2035024731670412000000, 33787328829809554000000, 80668571635029518000000),
   (2151597707163363200000, 50000000000000000000000, 80668571635029518000000),
   (2035024731670412000000, 66212671170190451000000, 80668571635029518000000),
   (1697948376990574700000, 80668571635029518000000, 80668571635029518000000),
   (1176971074064904300000, 91801555366331788000000, 80668571635029518000000),
   (529524373765813490000, 98408011975381304000000, 80668571635029518000000),
   (367051719227948560000, 1591988024618695700000, 91801555366331788000000),
   (815843949060875500000, 8198444633668211500000, 91801555366331788000000),
   (1176971074064904300000, 19331428364970482000000, 91801555366331788000000),
   (1410623124142285900000, 33787328829809554000000, 91801555366331788000000),
   (1491428301750840800000, 50000000000000000000000, 91801555366331788000000),
   (1410623124142285900000, 66212671170190451000000, 91801555366331788000000),
   (1176971074064904300000, 80668571635029518000000, 91801555366331788000000),
   (815843949060875500000, 91801555366331788000000, 91801555366331788000000),
   (367051719227948560000, 98408011975381304000000, 91801555366331788000000),
   (165138155088700570000, 1591988024618695700000, 98408011975381304000000),
   (367051719227948560000, 8198444633668211500000, 98408011975381304000000),
   (529524373765813490000, 19331428364970482000000, 98408011975381304000000),
   (634645441073794850000, 33787328829809554000000, 98408011975381304000000),
   (671000039766205670000, 50000000000000000000000, 98408011975381304000000),
   (634645441073794850000, 66212671170190451000000, 98408011975381304000000),
   (529524373765813490000, 80668571635029518000000, 98408011975381304000000),
   (367051719227948560000, 91801555366331788000000, 98408011975381304000000),
   (165138155088700570000, 98408011975381304000000, 98408011975381304000000)]

/-- Gauss rule on the square, number of points: 100 (`GeDiM/src/Quadrature/Quadrature_Gauss2D_Square.cpp:935-1238`). -/
def squareTab19 : List (ℕ × ℕ × ℕ) :=
  [(111126703798191060000, 1304673574141412800000, 1304673574141412800000),
   (249103058915408140000, 6746831665550773200000, 1304673574141412800000),
   (365169557716027650000, 16029521585048778000000, 1304673574141412800000),
   (448809353849691310000, 28330230293537639000000, 1304673574141412800000),
   (492574933437885370000, 42556283050918442000000, 1304673574141412800000),
   (492574933437885370000, 57443716949081558000000, 1304673574141412800000),
   (448809353849691310000, 71669769706462361000000, 1304673574141412800000),
   (365169557716027650000, 83970478414951222000000, 1304673574141412800000),
   (249103058915408140000, 93253168334449232000000, 1304673574141412800000),
   (111126703798191060000, 98695326425858587000000, 1304673574141412800000),
   (249103058915408140000, 1304673574141412800000, 6746831665550773200000),
   (558392644073218630000, 6746831665550773200000, 6746831665550773200000),
   (818568811462667620000, 16029521585048778000000, 6746831665550773200000),
   (1006056862055741200000, 28330230293537639000000, 6746831665550773200000),
   (1104162352257479100000, 42556283050918442000000, 6746831665550773200000),
   (1104162352257479100000, 57443716949081558000000, 6746831665550773200000),
   (1006056862055741200000, 71669769706462361000000, 6746831665550773200000),
   (818568811462667620000, 83970478414951222000000, 6746831665550773200000),
   (558392644073218630000, 93253168334449232000000, 6746831665550773200000),
   (249103058915408140000, 98695326425858587000000, 6746831665550773200000),
   (365169557716027650000, 1304673574141412800000, 16029521585048778000000),
   (818568811462667620000, 6746831665550773200000, 16029521585048778000000),
   (1199970856012107600000, 16029521585048778000000, 16029521585048778000000),
   (1474816652005976100000, 28330230293537639000000, 16029521585048778000000),
   (1618633185702772100000, 42556283050918442000000, 16029521585048778000000),
   (1618633185702772100000, 57443716949081558000000, 16029521585048778000000),
   (1474816652005976100000, 71669769706462361000000, 16029521585048778000000),
   (1199970856012107600000, 83970478414951222000000, 16029521585048778000000),
   (818568811462667620000, 93253168334449232000000, 16029521585048778000000),
   (365169557716027650000, 98695326425858587000000, 16029521585048778000000),
   (448809353849691310000, 1304673574141412800000, 28330230293537639000000),
   (1006056862055741200000, 6746831665550773200000, 28330230293537639000000),
   (1474816652005976100000, 16029521585048778000000, 28330230293537639000000),
   (1812614153199209100000, 28330230293537639000000, 28330230293537639000000),
   (1989370961639291100000, 42556283050918442000000, 28330230293537639000000),
   (1989370961639291100000, 57443716949081558000000, 28330230293537639000000),
   (1812614153199209100000, 71669769706462361000000, 28330230293537639000000),
   (1474816652005976100000, 83970478414951222000000, 28330230293537639000000),
   (1006056862055741200000, 93253168334449232000000, 28330230293537639000000),
   (448809353849691310000, 98695326425858587000000, 28330230293537639000000),
   (492574933437885370000, 1304673574141412800000, 42556283050918442000000),
   (1104162352257479100000, 6746831665550773200000, 42556283050918442000000),
   (1618633185702772100000, 16029521585048778000000, 42556283050918442000000),
   (1989370961639291100000, 28330230293537639000000, 42556283050918442000000),
   (2183364184831393700000, 42556283050918442000000, 42556283050918442000000),
   (2183364184831393700000, 57443716949081558000000, 42556283050918442000000),
   (1989370961639291100000, 71669769706462361000000, 42556283050918442000000),
   (1618633185702772100000, 83970478414951222000000, 42556283050918442000000),
   (1104162352257479100000, 93253168334449232000000, 42556283050918442000000),
   (492574933437885370000, 98695326425858587000000, 42556283050918442000000),
   (492574933437885370000, 1304673574141412800000, 57443716949081558000000),
   (1104162352257479100000, 6746831665550773200000, 57443716949081558000000),
   (1618633185702772100000, 16029521585048778000000, 57443716949081558000000),
   (1989370961639291100000, 28330230293537639000000, 57443716949081558000000),
   (2183364184831393700000, 42556283050918442000000, 57443716949081558000000),
   (2183364184831393700000, 57443716949081558000000, 57443716949081558000000),
   (1989370961639291100000, 71669769706462361000000, 57443716949081558000000),
   (1618633185702772100000, 83970478414951222000000, 57443716949081558000000),
   (1104162352257479100000, 93253168334449232000000, 57443716949081558000000),
   (492574933437885370000, 98695326425858587000000, 57443716949081558000000),
   (448809353849691310000, 1304673574141412800000, 71669769706462361000000),
   (1006056862055741200000, 6746831665550773200000, 71669769706462361000000),
   (1474816652005976100000, 16029521585048778000000, 71669769706462361000000),
   (1812614153199209100000, 28330230293537639000000, 71669769706462361000000),
   (1989370961639291100000, 42556283050918442000000, 71669769706462361000000),
   (1989370961639291100000, 57443716949081558000000, 71669769706462361000000),
   (1812614153199209100000, 71669769706462361000000, 71669769706462361000000),
   (1474816652005976100000, 83970478414951222000000, 71669769706462361000000),
   (1006056862055741200000, 93253168334449232000000, 71669769706462361000000),
   (448809353849691310000, 98695326425858587000000, 71669769706462361000000),
   (365169557716027650000, 1304673574141412800000, 83970478414951222000000),
   (818568811462667620000, 6746831665550773200000, 83970478414951222000000),
   (1199970856012107600000, 16029521585048778000000, 83970478414951222000000),
   (1474816652005976100000, 28330230293537639000000, 83970478414951222000000),
   (1618633185702772100000, 42556283050918442000000, 83970478414951222000000),
   (1618633185702772100000, 57443716949081558000000, 83970478414951222000000),
   (1474816652005976100000, 71669769706462361000000, 83970478414951222000000),
   (1199970856012107600000, 83970478414951222000000, 83970478414951222000000),
   (818568811462667620000, 93253168334449232000000, 83970478414951222000000),
   (365169557716027650000, 98695326425858587000000, 83970478414951222000000),
   (249103058915408140000, 1304673574141412800000, 93253168334449232000000),
   (558392644073218630000, 6746831665550773200000, 93253168334449232000000),
   (818568811462667620000, 16029521585048778000000, 93253168334449232000000),
   (1006056862055741200000, 28330230293537639000000, 93253168334449232000000),
   (1104162352257479100000, 42556283050918442000000, 93253168334449232000000),
   (1104162352257479100000, 57443716949081558000000, 93253168334449232000000),
   (1006056862055741200000, 71669769706462361000000, 93253168334449232000000),
   (818568811462667620000, 83970478414951222000000, 93253168334449232000000),
   (558392644073218630000, 93253168334449232000000, 93253168334449232000000),
   (249103058915408140000, 98695326425858587000000, 93253168334449232000000),
   (111126703798191060000, 1304673574141412800000, 98695326425858587000000),
   (249103058915408140000, 6746831665550773200000, 98695326425858587000000),
   (365169557716027650000, 16029521585048778000000, 98695326425858587000000),
   (448809353849691310000, 28330230293537639000000, 98695326425858587000000),
   (492574933437885370000, 42556283050918442000000, 98695326425858587000000),
   (492574933437885370000, 57443716949081558000000, 98695326425858587000000),
   (448809353849691310000, 71669769706462361000000, 98695326425858587000000),
   (365169557716027650000, 83970478414951222000000, 98695326425858587000000),
   (249103058915408140000, 93253168334449232000000, 98695326425858587000000),
   (111126703798191060000, 98695326425858587000000, 98695326425858587000000)]

/-- Gauss rule on the square, number of points: 121 (`GeDiM/src/Quadrature/Quadrature_Gauss2D_Square.cpp:1241-1607`). -/
def squareTab21 : List (ℕ × ℕ × ℕ) :=
  [(77474734119198298000, 1088567092697151400000, 1088567092697151400000),
   (174771980650773190000, 5646870011595234200000, 1088567092697151400000),
   (259262727752918080000, 13492399721297532000000, 1088567092697151400000),
   (324539068381560600000, 24045193539659410000000, 1088567092697151400000),
   (365748810612602850000, 36522842202382755000000, 1088567092697151400000),
   (379833712774577030000, 50000000000000000000000, 1088567092697151400000),
   (365748810612602850000, 63477157797617245000000, 1088567092697151400000),
   (324539068381560600000, 75954806460340585000000, 1088567092697151400000),
   (259262727752918080000, 86507600278702468000000, 1088567092697151400000),
   (174771980650773190000, 94353129988404771000000, 1088567092697151400000),
   (77474734119198298000, 98911432907302843000000, 1088567092697151400000),
   (174771980650773190000, 1088567092697151400000, 5646870011595234200000),
   (394260729873548680000, 5646870011595234200000, 5646870011595234200000),
   (584859837899996940000, 13492399721297532000000, 5646870011595234200000),
   (732113977859353850000, 24045193539659410000000, 5646870011595234200000),
   (825077294916318550000, 36522842202382755000000, 5646870011595234200000),
   (856850830845247780000, 50000000000000000000000, 5646870011595234200000),
   (825077294916318550000, 63477157797617245000000, 5646870011595234200000),
   (732113977859353850000, 75954806460340585000000, 5646870011595234200000),
   (584859837899996940000, 86507600278702468000000, 5646870011595234200000),
   (394260729873548680000, 94353129988404771000000, 5646870011595234200000),
   (174771980650773190000, 98911432907302843000000, 5646870011595234200000),
   (259262727752918080000, 1088567092697151400000, 13492399721297532000000),
   (584859837899996940000, 5646870011595234200000, 13492399721297532000000),
   (867601067187493030000, 13492399721297532000000, 13492399721297532000000),
   (1086042889821857900000, 24045193539659410000000, 13492399721297532000000),
   (1223947850739524400000, 36522842202382755000000, 13492399721297532000000),
   (1271081799583132100000, 50000000000000000000000, 13492399721297532000000),
   (1223947850739524400000, 63477157797617245000000, 13492399721297532000000),
   (1086042889821857900000, 75954806460340585000000, 13492399721297532000000),
   (867601067187493030000, 86507600278702468000000, 13492399721297532000000),
   (584859837899996940000, 94353129988404771000000, 13492399721297532000000),
   (259262727752918080000, 98911432907302843000000, 13492399721297532000000),
   (324539068381560600000, 1088567092697151400000, 24045193539659410000000),
   (732113977859353850000, 5646870011595234200000, 24045193539659410000000),
   (1086042889821857900000, 13492399721297532000000, 24045193539659410000000),
   (1359483296114616900000, 24045193539659410000000, 24045193539659410000000),
   (1532109527155693500000, 36522842202382755000000, 24045193539659410000000),
   (1591110710933358100000, 50000000000000000000000, 24045193539659410000000),
   (1532109527155693500000, 63477157797617245000000, 24045193539659410000000),
   (1359483296114616900000, 75954806460340585000000, 24045193539659410000000),
   (1086042889821857900000, 86507600278702468000000, 24045193539659410000000),
   (732113977859353850000, 94353129988404771000000, 24045193539659410000000),
   (324539068381560600000, 98911432907302843000000, 24045193539659410000000),
   (365748810612602850000, 1088567092697151400000, 36522842202382755000000),
   (825077294916318550000, 5646870011595234200000, 36522842202382755000000),
   (1223947850739524400000, 13492399721297532000000, 36522842202382755000000),
   (1532109527155693500000, 24045193539659410000000, 36522842202382755000000),
   (1726655715380955400000, 36522842202382755000000, 36522842202382755000000),
   (1793148827902142600000, 50000000000000000000000, 36522842202382755000000),
   (1726655715380955400000, 63477157797617245000000, 36522842202382755000000),
   (1532109527155693500000, 75954806460340585000000, 36522842202382755000000),
   (1223947850739524400000, 86507600278702468000000, 36522842202382755000000),
   (825077294916318550000, 94353129988404771000000, 36522842202382755000000),
   (365748810612602850000, 98911432907302843000000, 36522842202382755000000),
   (379833712774577030000, 1088567092697151400000, 50000000000000000000000),
   (856850830845247780000, 5646870011595234200000, 50000000000000000000000),
   (1271081799583132100000, 13492399721297532000000, 50000000000000000000000),
   (1591110710933358100000, 24045193539659410000000, 50000000000000000000000),
   (1793148827902142600000, 36522842202382755000000, 50000000000000000000000),
   (1862202574818114600000, 50000000000000000000000, 50000000000000000000000),
   (1793148827902142600000, 63477157797617245000000, 50000000000000000000000),
   (1591110710933358100000, 75954806460340585000000, 50000000000000000000000),
   (1271081799583132100000, 86507600278702468000000, 50000000000000000000000),
   (856850830845247780000, 94353129988404771000000, 50000000000000000000000),
   (379833712774577030000, 98911432907302843000000, 50000000000000000000000),
   (365748810612602850000, 1088567092697151400000, 63477157797617245000000),
   (825077294916318550000, 5646870011595234200000, 63477157797617245000000),
   (1223947850739524400000, 13492399721297532000000, 63477157797617245000000),
   (1532109527155693500000, 24045193539659410000000, 63477157797617245000000),
   (1726655715380955400000, 36522842202382755000000, 63477157797617245000000),
   (1793148827902142600000, 50000000000000000000000, 63477157797617245000000),
   (1726655715380955400000, 63477157797617245000000, 63477157797617245000000),
   (1532109527155693500000, 75954806460340585000000, 63477157797617245000000),
   (1223947850739524400000, 86507600278702468000000, 63477157797617245000000),
   (825077294916318550000, 94353129988404771000000, 63477157797617245000000),
   (365748810612602850000, 98911432907302843000000, 63477157797617245000000),
   (324539068381560600000, 1088567092697151400000, 75954806460340585000000),
   (732113977859353850000, 5646870011595234200000, 75954806460340585000000),
   (1086042889821857900000, 13492399721297532000000, 75954806460340585000000),
   (1359483296114616900000, 24045193539659410000000, 75954806460340585000000),
   (1532109527155693500000, 36522842202382755000000, 75954806460340585000000),
   (1591110710933358100000, 50000000000000000000000, 75954806460340585000000),
   (1532109527155693500000, 63477157797617245000000, 75954806460340585000000),
   (1359483296114616900000, 75954806460340585000000, 75954806460340585000000),
   (1086042889821857900000, 86507600278702468000000, 75954806460340585000000),
   (732113977859353850000, 94353129988404771000000, 75954806460340585000000),
   (324539068381560600000, 98911432907302843000000, 75954806460340585000000),
   (259262727752918080000, 1088567092697151400000, 86507600278702468000000),
   (584859837899996940000, 5646870011595234200000, 86507600278702468000000),
   (867601067187493030000, 13492399721297532000000, 86507600278702468000000),
   (1086042889821857900000, 24045193539659410000000, 86507600278702468000000),
   (1223947850739524400000, 36522842202382755000000, 86507600278702468000000),
   (1271081799583132100000, 50000000000000000000000, 86507600278702468000000),
   (1223947850739524400000, 63477157797617245000000, 86507600278702468000000),
   (1086042889821857900000, 75954806460340585000000, 86507600278702468000000),
   (867601067187493030000, 86507600278702468000000, 86507600278702468000000),
   (584859837899996940000, 94353129988404771000000, 86507600278702468000000),
   (259262727752918080000, 98911432907302843000000, 86507600278702468000000),
   (174771980650773190000, 1088567092697151400000, 94353129988404771000000),
   (394260729873548680000, 5646870011595234200000, 94353129988404771000000),
   (584859837899996940000, 13492399721297532000000, 94353129988404771000000),
   (732113977859353850000, 24045193539659410000000, 94353129988404771000000),
   (825077294916318550000, 36522842202382755000000, 94353129988404771000000),
   (856850830845247780000, 50000000000000000000000, 94353129988404771000000),
   (825077294916318550000, 63477157797617245000000, 94353129988404771000000),
   (732113977859353850000, 75954806460340585000000, 94353129988404771000000),
   (584859837899996940000, 86507600278702468000000, 94353129988404771000000),
   (394260729873548680000, 94353129988404771000000, 94353129988404771000000),
   (174771980650773190000, 98911432907302843000000, 94353129988404771000000),
   (77474734119198298000, 1088567092697151400000, 98911432907302843000000),
   (174771980650773190000, 5646870011595234200000, 98911432907302843000000),
   (259262727752918080000, 13492399721297532000000, 98911432907302843000000),
   (324539068381560600000, 24045193539659410000000, 98911432907302843000000),
   (365748810612602850000, 36522842202382755000000, 98911432907302843000000),
   (379833712774577030000, 50000000000000000000000, 98911432907302843000000),
   (365748810612602850000, 63477157797617245000000, 98911432907302843000000),
   (324539068381560600000, 75954806460340585000000, 98911432907302843000000),
   (259262727752918080000, 86507600278702468000000, 98911432907302843000000),
   (174771980650773190000, 94353129988404771000000, 98911432907302843000000),
   (77474734119198298000, 98911432907302843000000, 98911432907302843000000)]

/-- Gauss rule on the square, number of points: 144 (`GeDiM/src/Quadrature/Quadrature_Gauss2D_Square.cpp:1610-2045`). -/
def squareTab23 : List (ℕ × ℕ × ℕ) :=
  [(55637809079513666000, 921968287664037820000, 921968287664037820000),
   (126122466919399890000, 4794137181476254600000, 921968287664037820000),
   (188793724930572900000, 11504866290284765000000, 921968287664037820000),
   (239612292461065680000, 20634102285669126000000, 921968287664037820000),
   (275377223873419800000, 31608425050090994000000, 921968287664037820000),
   (293839892398823710000, 43738329574426554000000, 921968287664037820000),
   (293839892398823710000, 56261670425573440000000, 921968287664037820000),
   (275377223873419800000, 68391574949909006000000, 921968287664037820000),
   (239612292461065680000, 79365897714330869000000, 921968287664037820000),
   (188793724930572900000, 88495133709715235000000, 921968287664037820000),
   (126122466919399890000, 95205862818523745000000, 921968287664037820000),
   (55637809079513666000, 99078031712335957000000, 921968287664037820000),
   (126122466919399890000, 921968287664037820000, 4794137181476254600000),
   (285900486108324690000, 4794137181476254600000, 4794137181476254600000),
   (427966714022064670000, 11504866290284765000000, 4794137181476254600000),
   (543164691949197910000, 20634102285669126000000, 4794137181476254600000),
   (624238362058723070000, 31608425050090994000000, 4794137181476254600000),
   (666090428825250390000, 43738329574426554000000, 4794137181476254600000),
   (666090428825250390000, 56261670425573440000000, 4794137181476254600000),
   (624238362058723070000, 68391574949909006000000, 4794137181476254600000),
   (543164691949197910000, 79365897714330869000000, 4794137181476254600000),
   (427966714022064670000, 88495133709715235000000, 4794137181476254600000),
   (285900486108324690000, 95205862818523745000000, 4794137181476254600000),
   (126122466919399890000, 99078031712335957000000, 4794137181476254600000),
   (188793724930572900000, 921968287664037820000, 11504866290284765000000),
   (427966714022064670000, 4794137181476254600000, 11504866290284765000000),
   (640626781730787350000, 11504866290284765000000, 11504866290284765000000),
   (813067552107029150000, 20634102285669126000000, 11504866290284765000000),
   (934427374410150800000, 31608425050090994000000, 11504866290284765000000),
   (997076066383050480000, 43738329574426554000000, 11504866290284765000000),
   (997076066383050480000, 56261670425573440000000, 11504866290284765000000),
   (934427374410150800000, 68391574949909006000000, 11504866290284765000000),
   (813067552107029150000, 79365897714330869000000, 11504866290284765000000),
   (640626781730787350000, 88495133709715235000000, 11504866290284765000000),
   (427966714022064670000, 95205862818523745000000, 11504866290284765000000),
   (188793724930572900000, 99078031712335957000000, 11504866290284765000000),
   (239612292461065680000, 921968287664037820000, 20634102285669126000000),
   (543164691949197910000, 4794137181476254600000, 20634102285669126000000),
   (813067552107029150000, 11504866290284765000000, 20634102285669126000000),
   (1031925082031809000000, 20634102285669126000000, 20634102285669126000000),
   (1185951945188474900000, 31608425050090994000000, 20634102285669126000000),
   (1265464104339071400000, 43738329574426554000000, 20634102285669126000000),
   (1265464104339071400000, 56261670425573440000000, 20634102285669126000000),
   (1185951945188474900000, 68391574949909006000000, 20634102285669126000000),
   (1031925082031809000000, 79365897714330869000000, 20634102285669126000000),
   (813067552107029150000, 88495133709715235000000, 20634102285669126000000),
   (543164691949197910000, 95205862818523745000000, 20634102285669126000000),
   (239612292461065680000, 99078031712335957000000, 20634102285669126000000),
   (275377223873419800000, 921968287664037820000, 31608425050090994000000),
   (624238362058723070000, 4794137181476254600000, 31608425050090994000000),
   (934427374410150800000, 11504866290284765000000, 31608425050090994000000),
   (1185951945188474900000, 20634102285669126000000, 31608425050090994000000),
   (1362969115477873800000, 31608425050090994000000, 31608425050090994000000),
   (1454349392450227600000, 43738329574426554000000, 31608425050090994000000),
   (1454349392450227600000, 56261670425573440000000, 31608425050090994000000),
   (1362969115477873800000, 68391574949909006000000, 31608425050090994000000),
   (1185951945188474900000, 79365897714330869000000, 31608425050090994000000),
   (934427374410150800000, 88495133709715235000000, 31608425050090994000000),
   (624238362058723070000, 95205862818523745000000, 31608425050090994000000),
   (275377223873419800000, 99078031712335957000000, 31608425050090994000000),
   (293839892398823710000, 921968287664037820000, 43738329574426554000000),
   (666090428825250390000, 4794137181476254600000, 43738329574426554000000),
   (997076066383050480000, 11504866290284765000000, 43738329574426554000000),
   (1265464104339071400000, 20634102285669126000000, 43738329574426554000000),
   (1454349392450227600000, 31608425050090994000000, 43738329574426554000000),
   (1551856260938645600000, 43738329574426554000000, 43738329574426554000000),
   (1551856260938645600000, 56261670425573440000000, 43738329574426554000000),
   (1454349392450227600000, 68391574949909006000000, 43738329574426554000000),
   (1265464104339071400000, 79365897714330869000000, 43738329574426554000000),
   (997076066383050480000, 88495133709715235000000, 43738329574426554000000),
   (666090428825250390000, 95205862818523745000000, 43738329574426554000000),
   (293839892398823710000, 99078031712335957000000, 43738329574426554000000),
   (293839892398823710000, 921968287664037820000, 56261670425573440000000),
   (666090428825250390000, 4794137181476254600000, 56261670425573440000000),
   (997076066383050480000, 11504866290284765000000, 56261670425573440000000),
   (1265464104339071400000, 20634102285669126000000, 56261670425573440000000),
   (1454349392450227600000, 31608425050090994000000, 56261670425573440000000),
   (1551856260938645600000, 43738329574426554000000, 56261670425573440000000),
   (1551856260938645600000, 56261670425573440000000, 56261670425573440000000),
   (1454349392450227600000, 68391574949909006000000, 56261670425573440000000),
   (1265464104339071400000, 79365897714330869000000, 56261670425573440000000),
   (997076066383050480000, 88495133709715235000000, 56261670425573440000000),
   (666090428825250390000, 95205862818523745000000, 56261670425573440000000),
   (293839892398823710000, 99078031712335957000000, 56261670425573440000000),
   (275377223873419800000, 921968287664037820000, 68391574949909006000000),
   (624238362058723070000, 4794137181476254600000, 68391574949909006000000),
   (934427374410150800000, 11504866290284765000000, 68391574949909006000000),
   (1185951945188474900000, 20634102285669126000000, 68391574949909006000000),
   (1362969115477873800000, 31608425050090994000000, 68391574949909006000000),
   (1454349392450227600000, 43738329574426554000000, 68391574949909006000000),
   (1454349392450227600000, 56261670425573440000000, 68391574949909006000000),
   (1362969115477873800000, 68391574949909006000000, 68391574949909006000000),
   (1185951945188474900000, 79365897714330869000000, 68391574949909006000000),
   (934427374410150800000, 88495133709715235000000, 68391574949909006000000),
   (624238362058723070000, 95205862818523745000000, 68391574949909006000000),
   (275377223873419800000, 99078031712335957000000, 68391574949909006000000),
   (239612292461065680000, 921968287664037820000, 79365897714330869000000),
   (543164691949197910000, 4794137181476254600000, 79365897714330869000000),
   (813067552107029150000, 11504866290284765000000, 79365897714330869000000),
   (1031925082031809000000, 20634102285669126000000, 79365897714330869000000),
   (1185951945188474900000, 31608425050090994000000, 79365897714330869000000),
   (1265464104339071400000, 43738329574426554000000, 79365897714330869000000),
   (1265464104339071400000, 56261670425573440000000, 79365897714330869000000),
   (1185951945188474900000, 68391574949909006000000, 79365897714330869000000),
   (1031925082031809000000, 79365897714330869000000, 79365897714330869000000),
   (813067552107029150000, 88495133709715235000000, 79365897714330869000000),
   (543164691949197910000, 95205862818523745000000, 79365897714330869000000),
   (239612292461065680000, 99078031712335957000000, 79365897714330869000000),
   (188793724930572900000, 921968287664037820000, 88495133709715235000000),
   (427966714022064670000, 4794137181476254600000, 88495133709715235000000),
   (640626781730787350000, 11504866290284765000000, 88495133709715235000000),
   (813067552107029150000, 20634102285669126000000, 88495133709715235000000),
   (934427374410150800000, 31608425050090994000000, 88495133709715235000000),
   (997076066383050480000, 43738329574426554000000, 88495133709715235000000),
   (997076066383050480000, 56261670425573440000000, 88495133709715235000000),
   (934427374410150800000, 68391574949909006000000, 88495133709715235000000),
   (813067552107029150000, 79365897714330869000000, 88495133709715235000000),
   (640626781730787350000, 88495133709715235000000, 88495133709715235000000),
   (427966714022064670000, 95205862818523745000000, 88495133709715235000000),
   (188793724930572900000, 99078031712335957000000, 88495133709715235000000),
   (126122466919399890000, 921968287664037820000, 95205862818523745000000),
   (285900486108324690000, 4794137181476254600000, 95205862818523745000000),
   (427966714022064670000, 11504866290284765000000, 95205862818523745000000),
   (543164691949197910000, 20634102285669126000000, 95205862818523745000000),
   (624238362058723070000, 31608425050090994000000, 95205862818523745000000),
   (666090428825250390000, 43738329574426554000000, 95205862818523745000000),
   (666090428825250390000, 56261670425573440000000, 95205862818523745000000),
   (624238362058723070000, 68391574949909006000000, 95205862818523745000000),
   (543164691949197910000, 79365897714330869000000, 95205862818523745000000),
   (427966714022064670000, 88495133709715235000000, 95205862818523745000000),
   (285900486108324690000, 95205862818523745000000, 95205862818523745000000),
   (126122466919399890000, 99078031712335957000000, 95205862818523745000000),
   (55637809079513666000, 921968287664037820000, 99078031712335957000000),
   (126122466919399890000, 4794137181476254600000, 99078031712335957000000),
   (188793724930572900000, 11504866290284765000000, 99078031712335957000000),
   (239612292461065680000, 20634102285669126000000, 99078031712335957000000),
   (275377223873419800000, 31608425050090994000000, 99078031712335957000000),
   (293839892398823710000, 43738329574426554000000, 99078031712335957000000),
   (293839892398823710000, 56261670425573440000000, 99078031712335957000000),
   (275377223873419800000, 68391574949909006000000, 99078031712335957000000),
   (239612292461065680000, 79365897714330869000000, 99078031712335957000000),
   (188793724930572900000, 88495133709715235000000, 99078031712335957000000),
   (126122466919399890000, 95205862818523745000000, 99078031712335957000000),
   (55637809079513666000, 99078031712335957000000, 99078031712335957000000)]

/-- Gauss rule on the square, number of points: 169 (`GeDiM/src/Quadrature/Quadrature_Gauss2D_Square.cpp:2048-2558`). -/
def squareTab25 : List (ℕ × ℕ × ℕ) :=
  [(40973866045952966000, 790847264070593250000, 790847264070593250000),
   (93236180960466113000, 4120080038851103900000, 790847264070593250000),
   (140553896237850260000, 9921095463334506100000, 790847264070593250000),
   (180301568352212050000, 17882533027982989000000, 790847264070593250000),
   (210330646469812640000, 27575362448177654000000, 790847264070593250000),
   (229021233701849060000, 38477084202243261000000, 790847264070593250000),
   (235365454729507700000, 50000000000000000000000, 790847264070593250000),
   (229021233701849060000, 61522915797756739000000, 790847264070593250000),
   (210330646469812640000, 72424637551822346000000, 790847264070593250000),
   (180301568352212050000, 82117466972017006000000, 790847264070593250000),
   (140553896237850260000, 90078904536665494000000, 790847264070593250000),
   (93236180960466113000, 95879919961148896000000, 790847264070593250000),
   (40973866045952966000, 99209152735929407000000, 790847264070593250000),
   (93236180960466113000, 790847264070593250000, 4120080038851103900000),
   (212159268308815100000, 4120080038851103900000, 4120080038851103900000),
   (319830901229422800000, 9921095463334506100000, 4120080038851103900000),
   (410276873446339000000, 17882533027982989000000, 4120080038851103900000),
   (478608149736171100000, 27575362448177654000000, 4120080038851103900000),
   (521138648846729110000, 38477084202243261000000, 4120080038851103900000),
   (535574946830536230000, 50000000000000000000000, 4120080038851103900000),
   (521138648846729110000, 61522915797756739000000, 4120080038851103900000),
   (478608149736171100000, 72424637551822346000000, 4120080038851103900000),
   (410276873446339000000, 82117466972017006000000, 4120080038851103900000),
   (319830901229422800000, 90078904536665494000000, 4120080038851103900000),
   (212159268308815100000, 95879919961148896000000, 4120080038851103900000),
   (93236180960466113000, 99209152735929407000000, 4120080038851103900000),
   (140553896237850260000, 790847264070593250000, 9921095463334506100000),
   (319830901229422800000, 4120080038851103900000, 9921095463334506100000),
   (482146296019133820000, 9921095463334506100000, 9921095463334506100000),
   (618493941998952360000, 17882533027982989000000, 9921095463334506100000),
   (721503600036246980000, 27575362448177654000000, 9921095463334506100000),
   (785618488670135510000, 38477084202243261000000, 9921095463334506100000),
   (807381262605879130000, 50000000000000000000000, 9921095463334506100000),
   (785618488670135510000, 61522915797756739000000, 9921095463334506100000),
   (721503600036246980000, 72424637551822346000000, 9921095463334506100000),
   (618493941998952360000, 82117466972017006000000, 9921095463334506100000),
   (482146296019133820000, 90078904536665494000000, 9921095463334506100000),
   (319830901229422800000, 95879919961148896000000, 9921095463334506100000),
   (140553896237850260000, 99209152735929407000000, 9921095463334506100000),
   (180301568352212050000, 790847264070593250000, 17882533027982989000000),
   (410276873446339000000, 4120080038851103900000, 17882533027982989000000),
   (618493941998952360000, 9921095463334506100000, 17882533027982989000000),
   (793399761540888520000, 17882533027982989000000, 17882533027982989000000),
   (925539840163253600000, 27575362448177654000000, 17882533027982989000000),
   (1007785976946649700000, 38477084202243261000000, 17882533027982989000000),
   (1035703113200696500000, 50000000000000000000000, 17882533027982989000000),
   (1007785976946649700000, 61522915797756739000000, 17882533027982989000000),
   (925539840163253600000, 72424637551822346000000, 17882533027982989000000),
   (793399761540888520000, 82117466972017006000000, 17882533027982989000000),
   (618493941998952360000, 90078904536665494000000, 17882533027982989000000),
   (410276873446339000000, 95879919961148896000000, 17882533027982989000000),
   (180301568352212050000, 99209152735929407000000, 17882533027982989000000),
   (210330646469812640000, 790847264070593250000, 27575362448177654000000),
   (478608149736171100000, 4120080038851103900000, 27575362448177654000000),
   (721503600036246980000, 9921095463334506100000, 27575362448177654000000),
   (925539840163253600000, 17882533027982989000000, 27575362448177654000000),
   (1079687740346357700000, 27575362448177654000000, 27575362448177654000000),
   (1175631903657814100000, 38477084202243261000000, 27575362448177654000000),
   (1208198616025113600000, 50000000000000000000000, 27575362448177654000000),
   (1175631903657814100000, 61522915797756739000000, 27575362448177654000000),
   (1079687740346357700000, 72424637551822346000000, 27575362448177654000000),
   (925539840163253600000, 82117466972017006000000, 27575362448177654000000),
   (721503600036246980000, 90078904536665494000000, 27575362448177654000000),
   (478608149736171100000, 95879919961148896000000, 27575362448177654000000),
   (210330646469812640000, 99209152735929407000000, 27575362448177654000000),
   (229021233701849060000, 790847264070593250000, 38477084202243261000000),
   (521138648846729110000, 4120080038851103900000, 38477084202243261000000),
   (785618488670135510000, 9921095463334506100000, 38477084202243261000000),
   (1007785976946649700000, 17882533027982989000000, 38477084202243261000000),
   (1175631903657814100000, 27575362448177654000000, 38477084202243261000000),
   (1280101941747271100000, 38477084202243261000000, 38477084202243261000000),
   (1315562626003964400000, 50000000000000000000000, 38477084202243261000000),
   (1280101941747271100000, 61522915797756739000000, 38477084202243261000000),
   (1175631903657814100000, 72424637551822346000000, 38477084202243261000000),
   (1007785976946649700000, 82117466972017006000000, 38477084202243261000000),
   (785618488670135510000, 90078904536665494000000, 38477084202243261000000),
   (521138648846729110000, 95879919961148896000000, 38477084202243261000000),
   (229021233701849060000, 99209152735929407000000, 38477084202243261000000),
   (235365454729507700000, 790847264070593250000, 50000000000000000000000),
   (535574946830536230000, 4120080038851103900000, 50000000000000000000000),
   (807381262605879130000, 9921095463334506100000, 50000000000000000000000),
   (1035703113200696500000, 17882533027982989000000, 50000000000000000000000),
   (1208198616025113600000, 27575362448177654000000, 50000000000000000000000),
   (1315562626003964400000, 38477084202243261000000, 50000000000000000000000),
   (1352005622752299400000, 50000000000000000000000, 50000000000000000000000),
   (1315562626003964400000, 61522915797756739000000, 50000000000000000000000),
   (1208198616025113600000, 72424637551822346000000, 50000000000000000000000),
   (1035703113200696500000, 82117466972017006000000, 50000000000000000000000),
   (807381262605879130000, 90078904536665494000000, 50000000000000000000000),
   (535574946830536230000, 95879919961148896000000, 50000000000000000000000),
   (235365454729507700000, 99209152735929407000000, 50000000000000000000000),
   (229021233701849060000, 790847264070593250000, 61522915797756739000000),
   (521138648846729110000, 4120080038851103900000, 61522915797756739000000),
   (785618488670135510000, 9921095463334506100000, 61522915797756739000000),
   (1007785976946649700000, 17882533027982989000000, 61522915797756739000000),
   (1175631903657814100000, 27575362448177654000000, 61522915797756739000000),
   (1280101941747271100000, 38477084202243261000000, 61522915797756739000000),
   (1315562626003964400000, 50000000000000000000000, 61522915797756739000000),
   (1280101941747271100000, 61522915797756739000000, 61522915797756739000000),
   (1175631903657814100000, 72424637551822346000000, 61522915797756739000000),
   (1007785976946649700000, 82117466972017006000000, 61522915797756739000000),
   (785618488670135510000, 90078904536665494000000, 61522915797756739000000),
   (521138648846729110000, 95879919961148896000000, 61522915797756739000000),
   (229021233701849060000, 99209152735929407000000, 61522915797756739000000),
   (210330646469812640000, 790847264070593250000, 72424637551822346000000),
   (478608149736171100000, 4120080038851103900000, 72424637551822346000000),
   (721503600036246980000, 9921095463334506100000, 72424637551822346000000),
   (925539840163253600000, 17882533027982989000000, 72424637551822346000000),
   (1079687740346357700000, 27575362448177654000000, 72424637551822346000000),
   (1175631903657814100000, 38477084202243261000000, 72424637551822346000000),
   (1208198616025113600000, 50000000000000000000000, 72424637551822346000000),
   (1175631903657814100000, 61522915797756739000000, 72424637551822346000000),
   (1079687740346357700000, 72424637551822346000000, 72424637551822346000000),
   (925539840163253600000, 82117466972017006000000, 72424637551822346000000),
   (721503600036246980000, 90078904536665494000000, 72424637551822346000000),
   (478608149736171100000, 95879919961148896000000, 72424637551822346000000),
   (210330646469812640000, 99209152735929407000000, 72424637551822346000000),
   (180301568352212050000, 790847264070593250000, 82117466972017006000000),
   (410276873446339000000, 4120080038851103900000, 82117466972017006000000),
   (618493941998952360000, 9921095463334506100000, 82117466972017006000000),
   (793399761540888520000, 17882533027982989000000, 82117466972017006000000),
   (925539840163253600000, 27575362448177654000000, 82117466972017006000000),
   (1007785976946649700000, 38477084202243261000000, 82117466972017006000000),
   (1035703113200696500000, 50000000000000000000000, 82117466972017006000000),
   (1007785976946649700000, 61522915797756739000000, 82117466972017006000000),
   (925539840163253600000, 72424637551822346000000, 82117466972017006000000),
   (793399761540888520000, 82117466972017006000000, 82117466972017006000000),
   (618493941998952360000, 90078904536665494000000, 82117466972017006000000),
   (410276873446339000000, 95879919961148896000000, 82117466972017006000000),
   (180301568352212050000, 99209152735929407000000, 82117466972017006000000),
   (140553896237850260000, 790847264070593250000, 90078904536665494000000),
   (319830901229422800000, 4120080038851103900000, 90078904536665494000000),
   (482146296019133820000, 9921095463334506100000, 90078904536665494000000),
   (618493941998952360000, 17882533027982989000000, 90078904536665494000000),
   (721503600036246980000, 27575362448177654000000, 90078904536665494000000),
   (785618488670135510000, 38477084202243261000000, 90078904536665494000000),
   (807381262605879130000, 50000000000000000000000, 90078904536665494000000),
   (785618488670135510000, 61522915797756739000000, 90078904536665494000000),
   (721503600036246980000, 72424637551822346000000, 90078904536665494000000),
   (618493941998952360000, 82117466972017006000000, 90078904536665494000000),
   (482146296019133820000, 90078904536665494000000, 90078904536665494000000),
   (319830901229422800000, 95879919961148896000000, 90078904536665494000000),
   (140553896237850260000, 99209152735929407000000, 90078904536665494000000),
   (93236180960466113000, 790847264070593250000, 95879919961148896000000),
   (212159268308815100000, 4120080038851103900000, 95879919961148896000000),
   (319830901229422800000, 9921095463334506100000, 95879919961148896000000),
   (410276873446339000000, 17882533027982989000000, 95879919961148896000000),
   (478608149736171100000, 27575362448177654000000, 95879919961148896000000),
   (521138648846729110000, 38477084202243261000000, 95879919961148896000000),
   (535574946830536230000, 50000000000000000000000, 95879919961148896000000),
   (521138648846729110000, 61522915797756739000000, 95879919961148896000000),
   (478608149736171100000, 72424637551822346000000, 95879919961148896000000),
   (410276873446339000000, 82117466972017006000000, 95879919961148896000000),
   (319830901229422800000, 90078904536665494000000, 95879919961148896000000),
   (212159268308815100000, 95879919961148896000000, 95879919961148896000000),
   (93236180960466113000, 99209152735929407000000, 95879919961148896000000),
   (40973866045952966000, 790847264070593250000, 99209152735929407000000),
   (93236180960466113000, 4120080038851103900000, 99209152735929407000000),
   (140553896237850260000, 9921095463334506100000, 99209152735929407000000),
   (180301568352212050000, 17882533027982989000000, 99209152735929407000000),
   (210330646469812640000, 27575362448177654000000, 99209152735929407000000),
   (229021233701849060000, 38477084202243261000000, 99209152735929407000000),
   (235365454729507700000, 50000000000000000000000, 99209152735929407000000),
   (229021233701849060000, 61522915797756739000000, 99209152735929407000000),
   (210330646469812640000, 72424637551822346000000, 99209152735929407000000),
   (180301568352212050000, 82117466972017006000000, 99209152735929407000000),
   (140553896237850260000, 90078904536665494000000, 99209152735929407000000),
   (93236180960466113000, 95879919961148896000000, 99209152735929407000000),
   (40973866045952966000, 99209152735929407000000, 99209152735929407000000)]

/-- Gauss rule on the square, number of points: 196 (`GeDiM/src/Quadrature/Quadrature_Gauss2D_Square.cpp:2561-3152`). -/
def squareTab27 : List (ℕ × ℕ × ℕ) :=
  [(30834412349837310000, 685809565159384290000, 685809565159384290000),
   (70377719056907673000, 3578255816821324100000, 685809565159384290000),
   (106691665571125010000, 8639934246511749000000, 685809565159384290000),
   (138022259825948380000, 15635354759415726000000, 685809565159384290000),
   (162900209756081170000, 24237568182092295000000, 685809565159384290000),
   (180161482669911610000, 34044381553605513000000, 685809565159384290000),
   (188998759063985400000, 44597252564632817000000, 685809565159384290000),
   (188998759063985400000, 55402747435367183000000, 685809565159384290000),
   (180161482669911610000, 65955618446394482000000, 685809565159384290000),
   (162900209756081170000, 75762431817907705000000, 685809565159384290000),
   (138022259825948380000, 84364645240584268000000, 685809565159384290000),
   (106691665571125010000, 91360065753488251000000, 685809565159384290000),
   (70377719056907673000, 96421744183178681000000, 685809565159384290000),
   (30834412349837310000, 99314190434840621000000, 685809565159384290000),
   (70377719056907673000, 685809565159384290000, 3578255816821324100000),
   (160632973427792850000, 3578255816821324100000, 3578255816821324100000),
   (243517404518260640000, 8639934246511749000000, 3578255816821324100000),
   (315027629371420790000, 15635354759415726000000, 3578255816821324100000),
   (371810075912969340000, 24237568182092295000000, 3578255816821324100000),
   (411207908500512650000, 34044381553605513000000, 3578255816821324100000),
   (431378468206141280000, 44597252564632817000000, 3578255816821324100000),
   (431378468206141280000, 55402747435367183000000, 3578255816821324100000),
   (411207908500512650000, 65955618446394482000000, 3578255816821324100000),
   (371810075912969340000, 75762431817907705000000, 3578255816821324100000),
   (315027629371420790000, 84364645240584268000000, 3578255816821324100000),
   (243517404518260640000, 91360065753488251000000, 3578255816821324100000),
   (160632973427792850000, 96421744183178681000000, 3578255816821324100000),
   (70377719056907673000, 99314190434840621000000, 3578255816821324100000),
   (106691665571125010000, 685809565159384290000, 8639934246511749000000),
   (243517404518260640000, 3578255816821324100000, 8639934246511749000000),
   (369169075550773070000, 8639934246511749000000, 8639934246511749000000),
   (477577604516880080000, 15635354759415726000000, 8639934246511749000000),
   (563659021731076610000, 24237568182092295000000, 8639934246511749000000),
   (623385600469134920000, 34044381553605513000000, 8639934246511749000000),
   (653963894840329290000, 44597252564632817000000, 8639934246511749000000),
   (653963894840329290000, 55402747435367183000000, 8639934246511749000000),
   (623385600469134920000, 65955618446394482000000, 8639934246511749000000),
   (563659021731076610000, 75762431817907705000000, 8639934246511749000000),
   (477577604516880080000, 84364645240584268000000, 8639934246511749000000),
   (369169075550773070000, 91360065753488251000000, 8639934246511749000000),
   (243517404518260640000, 96421744183178681000000, 8639934246511749000000),
   (106691665571125010000, 99314190434840621000000, 8639934246511749000000),
   (138022259825948380000, 685809565159384290000, 15635354759415726000000),
   (315027629371420790000, 3578255816821324100000, 15635354759415726000000),
   (477577604516880080000, 8639934246511749000000, 15635354759415726000000),
   (617820894114173590000, 15635354759415726000000, 15635354759415726000000),
   (729180592824690400000, 24237568182092295000000, 15635354759415726000000),
   (806446209824583650000, 34044381553605513000000, 15635354759415726000000),
   (846003988477141840000, 44597252564632817000000, 15635354759415726000000),
   (846003988477141840000, 55402747435367183000000, 15635354759415726000000),
   (806446209824583650000, 65955618446394482000000, 15635354759415726000000),
   (729180592824690400000, 75762431817907705000000, 15635354759415726000000),
   (617820894114173590000, 84364645240584268000000, 15635354759415726000000),
   (477577604516880080000, 91360065753488251000000, 15635354759415726000000),
   (315027629371420790000, 96421744183178681000000, 15635354759415726000000),
   (138022259825948380000, 99314190434840621000000, 15635354759415726000000),
   (162900209756081170000, 685809565159384290000, 24237568182092295000000),
   (371810075912969340000, 3578255816821324100000, 24237568182092295000000),
   (563659021731076610000, 8639934246511749000000, 24237568182092295000000),
   (729180592824690400000, 15635354759415726000000, 24237568182092295000000),
   (860612423467031070000, 24237568182092295000000, 24237568182092295000000),
   (951804853094598630000, 34044381553605513000000, 24237568182092295000000),
   (998492760161998410000, 44597252564632817000000, 24237568182092295000000),
   (998492760161998410000, 55402747435367183000000, 24237568182092295000000),
   (951804853094598630000, 65955618446394482000000, 24237568182092295000000),
   (860612423467031070000, 75762431817907705000000, 24237568182092295000000),
   (729180592824690400000, 84364645240584268000000, 24237568182092295000000),
   (563659021731076610000, 91360065753488251000000, 24237568182092295000000),
   (371810075912969340000, 96421744183178681000000, 24237568182092295000000),
   (162900209756081170000, 99314190434840621000000, 24237568182092295000000),
   (180161482669911610000, 685809565159384290000, 34044381553605513000000),
   (411207908500512650000, 3578255816821324100000, 34044381553605513000000),
   (623385600469134920000, 8639934246511749000000, 34044381553605513000000),
   (806446209824583650000, 15635354759415726000000, 34044381553605513000000),
   (951804853094598630000, 24237568182092295000000, 34044381553605513000000),
   (1052660237839496800000, 34044381553605513000000, 34044381553605513000000),
   (1104295300634151900000, 44597252564632817000000, 34044381553605513000000),
   (1104295300634151900000, 55402747435367183000000, 34044381553605513000000),
   (1052660237839496800000, 65955618446394482000000, 34044381553605513000000),
   (951804853094598630000, 75762431817907705000000, 34044381553605513000000),
   (806446209824583650000, 84364645240584268000000, 34044381553605513000000),
   (623385600469134920000, 91360065753488251000000, 34044381553605513000000),
   (411207908500512650000, 96421744183178681000000, 34044381553605513000000),
   (180161482669911610000, 99314190434840621000000, 34044381553605513000000),
   (188998759063985400000, 685809565159384290000, 44597252564632817000000),
   (431378468206141280000, 3578255816821324100000, 44597252564632817000000),
   (653963894840329290000, 8639934246511749000000, 44597252564632817000000),
   (846003988477141840000, 15635354759415726000000, 44597252564632817000000),
   (998492760161998410000, 24237568182092295000000, 44597252564632817000000),
   (1104295300634151900000, 34044381553605513000000, 44597252564632817000000),
   (1158463165195196800000, 44597252564632817000000, 44597252564632817000000),
   (1158463165195196800000, 55402747435367183000000, 44597252564632817000000),
   (1104295300634151900000, 65955618446394482000000, 44597252564632817000000),
   (998492760161998410000, 75762431817907705000000, 44597252564632817000000),
   (846003988477141840000, 84364645240584268000000, 44597252564632817000000),
   (653963894840329290000, 91360065753488251000000, 44597252564632817000000),
   (431378468206141280000, 96421744183178681000000, 44597252564632817000000),
   (188998759063985400000, 99314190434840621000000, 44597252564632817000000),
   (188998759063985400000, 685809565159384290000, 55402747435367183000000),
   (431378468206141280000, 3578255816821324100000, 55402747435367183000000),
   (653963894840329290000, 8639934246511749000000, 55402747435367183000000),
   (846003988477141840000, 15635354759415726000000, 55402747435367183000000),
   (998492760161998410000, 24237568182092295000000, 55402747435367183000000),
   (1104295300634151900000, 34044381553605513000000, 55402747435367183000000),
   (1158463165195196800000, 44597252564632817000000, 55402747435367183000000),
   (1158463165195196800000, 55402747435367183000000, 55402747435367183000000),
   (1104295300634151900000, 65955618446394482000000, 55402747435367183000000),
   (998492760161998410000, 75762431817907705000000, 55402747435367183000000),
   (846003988477141840000, 84364645240584268000000, 55402747435367183000000),
   (653963894840329290000, 91360065753488251000000, 55402747435367183000000),
   (431378468206141280000, 96421744183178681000000, 55402747435367183000000),
   (188998759063985400000, 99314190434840621000000, 55402747435367183000000),
   (180161482669911610000, 685809565159384290000, 65955618446394482000000),
   (411207908500512650000, 3578255816821324100000, 65955618446394482000000),
   (623385600469134920000, 8639934246511749000000, 65955618446394482000000),
   (806446209824583650000, 15635354759415726000000, 65955618446394482000000),
   (951804853094598630000, 24237568182092295000000, 65955618446394482000000),
   (1052660237839496800000, 34044381553605513000000, 65955618446394482000000),
   (1104295300634151900000, 44597252564632817000000, 65955618446394482000000),
   (1104295300634151900000, 55402747435367183000000, 65955618446394482000000),
   (1052660237839496800000, 65955618446394482000000, 65955618446394482000000),
   (951804853094598630000, 75762431817907705000000, 65955618446394482000000),
   (806446209824583650000, 84364645240584268000000, 65955618446394482000000),
   (623385600469134920000, 91360065753488251000000, 65955618446394482000000),
   (411207908500512650000, 96421744183178681000000, 65955618446394482000000),
   (180161482669911610000, 99314190434840621000000, 65955618446394482000000),
   (162900209756081170000, 685809565159384290000, 75762431817907705000000),
   (371810075912969340000, 3578255816821324100000, 75762431817907705000000),
   (563659021731076610000, 8639934246511749000000, 75762431817907705000000),
   (729180592824690400000, 15635354759415726000000, 75762431817907705000000),
   (860612423467031070000, 24237568182092295000000, 75762431817907705000000),
   (951804853094598630000, 34044381553605513000000, 75762431817907705000000),
   (998492760161998410000, 44597252564632817000000, 75762431817907705000000),
   (998492760161998410000, 55402747435367183000000, 75762431817907705000000),
   (951804853094598630000, 65955618446394482000000, 75762431817907705000000),
   (860612423467031070000, 75762431817907705000000, 75762431817907705000000),
   (729180592824690400000, 84364645240584268000000, 75762431817907705000000),
   (563659021731076610000, 91360065753488251000000, 75762431817907705000000),
   (371810075912969340000, 96421744183178681000000, 75762431817907705000000),
   (162900209756081170000, 99314190434840621000000, 75762431817907705000000),
   (138022259825948380000, 685809565159384290000, 84364645240584268000000),
   (315027629371420790000, 3578255816821324100000, 84364645240584268000000),
   (477577604516880080000, 8639934246511749000000, 84364645240584268000000),
   (617820894114173590000, 15635354759415726000000, 84364645240584268000000),
   (729180592824690400000, 24237568182092295000000, 84364645240584268000000),
   (806446209824583650000, 34044381553605513000000, 84364645240584268000000),
   (846003988477141840000, 44597252564632817000000, 84364645240584268000000),
   (846003988477141840000, 55402747435367183000000, 84364645240584268000000),
   (806446209824583650000, 65955618446394482000000, 84364645240584268000000),
   (729180592824690400000, 75762431817907705000000, 84364645240584268000000),
   (617820894114173590000, 84364645240584268000000, 84364645240584268000000),
   (477577604516880080000, 91360065753488251000000, 84364645240584268000000),
   (315027629371420790000, 96421744183178681000000, 84364645240584268000000),
   (138022259825948380000, 99314190434840621000000, 84364645240584268000000),
   (106691665571125010000, 685809565159384290000, 91360065753488251000000),
   (243517404518260640000, 3578255816821324100000, 91360065753488251000000),
   (369169075550773070000, 8639934246511749000000, 91360065753488251000000),
   (477577604516880080000, 15635354759415726000000, 91360065753488251000000),
   (563659021731076610000, 24237568182092295000000, 91360065753488251000000),
   (623385600469134920000, 34044381553605513000000, 91360065753488251000000),
   (653963894840329290000, 44597252564632817000000, 91360065753488251000000),
   (653963894840329290000, 55402747435367183000000, 91360065753488251000000),
   (623385600469134920000, 65955618446394482000000, 91360065753488251000000),
   (563659021731076610000, 75762431817907705000000, 91360065753488251000000),
   (477577604516880080000, 84364645240584268000000, 91360065753488251000000),
   (369169075550773070000, 91360065753488251000000, 91360065753488251000000),
   (243517404518260640000, 96421744183178681000000, 91360065753488251000000),
   (106691665571125010000, 99314190434840621000000, 91360065753488251000000),
   (70377719056907673000, 685809565159384290000, 96421744183178681000000),
   (160632973427792850000, 3578255816821324100000, 96421744183178681000000),
   (243517404518260640000, 8639934246511749000000, 96421744183178681000000),
   (315027629371420790000, 15635354759415726000000, 96421744183178681000000),
   (371810075912969340000, 24237568182092295000000, 96421744183178681000000),
   (411207908500512650000, 34044381553605513000000, 96421744183178681000000),
   (431378468206141280000, 44597252564632817000000, 96421744183178681000000),
   (431378468206141280000, 55402747435367183000000, 96421744183178681000000),
   (411207908500512650000, 65955618446394482000000, 96421744183178681000000),
   (371810075912969340000, 75762431817907705000000, 96421744183178681000000),
   (315027629371420790000, 84364645240584268000000, 96421744183178681000000),
   (243517404518260640000, 91360065753488251000000, 96421744183178681000000),
   (160632973427792850000, 96421744183178681000000, 96421744183178681000000),
   (70377719056907673000, 99314190434840621000000, 96421744183178681000000),
   (30834412349837310000, 685809565159384290000, 99314190434840621000000),
   (70377719056907673000, 3578255816821324100000, 99314190434840621000000),
   (106691665571125010000, 8639934246511749000000, 99314190434840621000000),
   (138022259825948380000, 15635354759415726000000, 99314190434840621000000),
   (162900209756081170000, 24237568182092295000000, 99314190434840621000000),
   (180161482669911610000, 34044381553605513000000, 99314190434840621000000),
   (188998759063985400000, 44597252564632817000000, 99314190434840621000000),
   (188998759063985400000, 55402747435367183000000, 99314190434840621000000),
   (180161482669911610000, 65955618446394482000000, 99314190434840621000000),
   (162900209756081170000, 75762431817907705000000, 99314190434840621000000),
   (138022259825948380000, 84364645240584268000000, 99314190434840621000000),
   (106691665571125010000, 91360065753488251000000, 99314190434840621000000),
   (70377719056907673000, 96421744183178681000000, 99314190434840621000000),
   (30834412349837310000, 99314190434840621000000, 99314190434840621000000)]

/-- Gauss rule on the square, number of points: 225 (`GeDiM/src/Quadrature/Quadrature_Gauss2D_Square.cpp:3155-3833`). -/
def squareTab29 : List (ℕ × ℕ × ℕ) :=
  [(23644047331793772000, 600374098975731130000, 600374098975731130000),
   (54099602167801721000, 3136330379964702400000, 600374098975731130000),
   (82387335978555533000, 7589670829478639700000, 600374098975731130000),
   (107306270845629170000, 13779113431991497000000, 600374098975731130000),
   (127832928074806080000, 21451391369573058000000, 600374098975731130000),
   (143126357092944380000, 30292432646121831000000, 600374098975731130000),
   (152560287197841380000, 39940295300128276000000, 600374098975731130000),
   (155748442427119400000, 50000000000000000000000, 600374098975731130000),
   (152560287197841380000, 60059704699871730000000, 600374098975731130000),
   (143126357092944380000, 69707567353878175000000, 600374098975731130000),
   (127832928074806080000, 78548608630426942000000, 600374098975731130000),
   (107306270845629170000, 86220886568008503000000, 600374098975731130000),
   (82387335978555533000, 92410329170521366000000, 600374098975731130000),
   (54099602167801721000, 96863669620035298000000, 600374098975731130000),
   (23644047331793772000, 99399625901024269000000, 600374098975731130000),
   (54099602167801721000, 600374098975731130000, 3136330379964702400000),
   (123784515977467200000, 3136330379964702400000, 3136330379964702400000),
   (188509269904541710000, 7589670829478639700000, 3136330379964702400000),
   (245525923772480470000, 13779113431991497000000, 3136330379964702400000),
   (292492670808215450000, 21451391369573058000000, 3136330379964702400000),
   (327485344188218700000, 30292432646121831000000, 3136330379964702400000),
   (349070982991584120000, 39940295300128276000000, 3136330379964702400000),
   (356365754784787560000, 50000000000000000000000, 3136330379964702400000),
   (349070982991584120000, 60059704699871730000000, 3136330379964702400000),
   (327485344188218700000, 69707567353878175000000, 3136330379964702400000),
   (292492670808215450000, 78548608630426942000000, 3136330379964702400000),
   (245525923772480470000, 86220886568008503000000, 3136330379964702400000),
   (188509269904541710000, 92410329170521366000000, 3136330379964702400000),
   (123784515977467200000, 96863669620035298000000, 3136330379964702400000),
   (54099602167801721000, 99399625901024269000000, 3136330379964702400000),
   (82387335978555533000, 600374098975731130000, 7589670829478639700000),
   (188509269904541710000, 3136330379964702400000, 7589670829478639700000),
   (287077463278299050000, 7589670829478639700000, 7589670829478639700000),
   (373907126166035490000, 13779113431991497000000, 7589670829478639700000),
   (445431962076120980000, 21451391369573058000000, 7589670829478639700000),
   (498721691076420720000, 30292432646121831000000, 7589670829478639700000),
   (531594082094908550000, 39940295300128276000000, 7589670829478639700000),
   (542703162208832930000, 50000000000000000000000, 7589670829478639700000),
   (531594082094908550000, 60059704699871730000000, 7589670829478639700000),
   (498721691076420720000, 69707567353878175000000, 7589670829478639700000),
   (445431962076120980000, 78548608630426942000000, 7589670829478639700000),
   (373907126166035490000, 86220886568008503000000, 7589670829478639700000),
   (287077463278299050000, 92410329170521366000000, 7589670829478639700000),
   (188509269904541710000, 96863669620035298000000, 7589670829478639700000),
   (82387335978555533000, 99399625901024269000000, 7589670829478639700000),
   (107306270845629170000, 600374098975731130000, 13779113431991497000000),
   (245525923772480470000, 3136330379964702400000, 13779113431991497000000),
   (373907126166035490000, 7589670829478639700000, 13779113431991497000000),
   (486999353419157510000, 13779113431991497000000, 13779113431991497000000),
   (580157644353028120000, 21451391369573058000000, 13779113431991497000000),
   (649565424389571090000, 30292432646121831000000, 13779113431991497000000),
   (692380423224967650000, 39940295300128276000000, 13779113431991497000000),
   (706849563965977150000, 50000000000000000000000, 13779113431991497000000),
   (692380423224967650000, 60059704699871730000000, 13779113431991497000000),
   (649565424389571090000, 69707567353878175000000, 13779113431991497000000),
   (580157644353028120000, 78548608630426942000000, 13779113431991497000000),
   (486999353419157510000, 86220886568008503000000, 13779113431991497000000),
   (373907126166035490000, 92410329170521366000000, 13779113431991497000000),
   (245525923772480470000, 96863669620035298000000, 13779113431991497000000),
   (107306270845629170000, 99399625901024269000000, 13779113431991497000000),
   (127832928074806080000, 600374098975731130000, 21451391369573058000000),
   (292492670808215450000, 3136330379964702400000, 21451391369573058000000),
   (445431962076120980000, 7589670829478639700000, 21451391369573058000000),
   (580157644353028120000, 13779113431991497000000, 21451391369573058000000),
   (691136220075347100000, 21451391369573058000000, 21451391369573058000000),
   (773821040667123030000, 30292432646121831000000, 21451391369573058000000),
   (824826136860633100000, 39940295300128276000000, 21451391369573058000000),
   (842063085019148330000, 50000000000000000000000, 21451391369573058000000),
   (824826136860633100000, 60059704699871730000000, 21451391369573058000000),
   (773821040667123030000, 69707567353878175000000, 21451391369573058000000),
   (691136220075347100000, 78548608630426942000000, 21451391369573058000000),
   (580157644353028120000, 86220886568008503000000, 21451391369573058000000),
   (445431962076120980000, 92410329170521366000000, 21451391369573058000000),
   (292492670808215450000, 96863669620035298000000, 21451391369573058000000),
   (127832928074806080000, 99399625901024269000000, 21451391369573058000000),
   (143126357092944380000, 600374098975731130000, 30292432646121831000000),
   (327485344188218700000, 3136330379964702400000, 30292432646121831000000),
   (498721691076420720000, 7589670829478639700000, 30292432646121831000000),
   (649565424389571090000, 13779113431991497000000, 30292432646121831000000),
   (773821040667123030000, 21451391369573058000000, 30292432646121831000000),
   (866397948169853920000, 30292432646121831000000, 30292432646121831000000),
   (923505093576711300000, 39940295300128276000000, 30292432646121831000000),
   (942804202456424580000, 50000000000000000000000, 30292432646121831000000),
   (923505093576711300000, 60059704699871730000000, 30292432646121831000000),
   (866397948169853920000, 69707567353878175000000, 30292432646121831000000),
   (773821040667123030000, 78548608630426942000000, 30292432646121831000000),
   (649565424389571090000, 86220886568008503000000, 30292432646121831000000),
   (498721691076420720000, 92410329170521366000000, 30292432646121831000000),
   (327485344188218700000, 96863669620035298000000, 30292432646121831000000),
   (143126357092944380000, 99399625901024269000000, 30292432646121831000000),
   (152560287197841380000, 600374098975731130000, 39940295300128276000000),
   (349070982991584120000, 3136330379964702400000, 39940295300128276000000),
   (531594082094908550000, 7589670829478639700000, 39940295300128276000000),
   (692380423224967650000, 13779113431991497000000, 39940295300128276000000),
   (824826136860633100000, 21451391369573058000000, 39940295300128276000000),
   (923505093576711300000, 30292432646121831000000, 39940295300128276000000),
   (984376359228092410000, 39940295300128276000000, 39940295300128276000000),
   (1004947536006101800000, 50000000000000000000000, 39940295300128276000000),
   (984376359228092410000, 60059704699871730000000, 39940295300128276000000),
   (923505093576711300000, 69707567353878175000000, 39940295300128276000000),
   (824826136860633100000, 78548608630426942000000, 39940295300128276000000),
   (692380423224967650000, 86220886568008503000000, 39940295300128276000000),
   (531594082094908550000, 92410329170521366000000, 39940295300128276000000),
   (349070982991584120000, 96863669620035298000000, 39940295300128276000000),
   (152560287197841380000, 99399625901024269000000, 39940295300128276000000),
   (155748442427119400000, 600374098975731130000, 50000000000000000000000),
   (356365754784787560000, 3136330379964702400000, 50000000000000000000000),
   (542703162208832930000, 7589670829478639700000, 50000000000000000000000),
   (706849563965977150000, 13779113431991497000000, 50000000000000000000000),
   (842063085019148330000, 21451391369573058000000, 50000000000000000000000),
   (942804202456424580000, 30292432646121831000000, 50000000000000000000000),
   (1004947536006101800000, 39940295300128276000000, 50000000000000000000000),
   (1025948602541280900000, 50000000000000000000000, 50000000000000000000000),
   (1004947536006101800000, 60059704699871730000000, 50000000000000000000000),
   (942804202456424580000, 69707567353878175000000, 50000000000000000000000),
   (842063085019148330000, 78548608630426942000000, 50000000000000000000000),
   (706849563965977150000, 86220886568008503000000, 50000000000000000000000),
   (542703162208832930000, 92410329170521366000000, 50000000000000000000000),
   (356365754784787560000, 96863669620035298000000, 50000000000000000000000),
   (155748442427119400000, 99399625901024269000000, 50000000000000000000000),
   (152560287197841380000, 600374098975731130000, 60059704699871730000000),
   (349070982991584120000, 3136330379964702400000, 60059704699871730000000),
   (531594082094908550000, 7589670829478639700000, 60059704699871730000000),
   (692380423224967650000, 13779113431991497000000, 60059704699871730000000),
   (824826136860633100000, 21451391369573058000000, 60059704699871730000000),
   (923505093576711300000, 30292432646121831000000, 60059704699871730000000),
   (984376359228092410000, 39940295300128276000000, 60059704699871730000000),
   (1004947536006101800000, 50000000000000000000000, 60059704699871730000000),
   (984376359228092410000, 60059704699871730000000, 60059704699871730000000),
   (923505093576711300000, 69707567353878175000000, 60059704699871730000000),
   (824826136860633100000, 78548608630426942000000, 60059704699871730000000),
   (692380423224967650000, 86220886568008503000000, 60059704699871730000000),
   (531594082094908550000, 92410329170521366000000, 60059704699871730000000),
   (349070982991584120000, 96863669620035298000000, 60059704699871730000000),
   (152560287197841380000, 99399625901024269000000, 60059704699871730000000),
   (143126357092944380000, 600374098975731130000, 69707567353878175000000),
   (327485344188218700000, 3136330379964702400000, 69707567353878175000000),
   (498721691076420720000, 7589670829478639700000, 69707567353878175000000),
   (649565424389571090000, 13779113431991497000000, 69707567353878175000000),
   (773821040667123030000, 21451391369573058000000, 69707567353878175000000),
   (866397948169853920000, 30292432646121831000000, 69707567353878175000000),
   (923505093576711300000, 39940295300128276000000, 69707567353878175000000),
   (942804202456424580000, 50000000000000000000000, 69707567353878175000000),
   (923505093576711300000, 60059704699871730000000, 69707567353878175000000),
   (866397948169853920000, 69707567353878175000000, 69707567353878175000000),
   (773821040667123030000, 78548608630426942000000, 69707567353878175000000),
   (649565424389571090000, 86220886568008503000000, 69707567353878175000000),
   (498721691076420720000, 92410329170521366000000, 69707567353878175000000),
   (327485344188218700000, 96863669620035298000000, 69707567353878175000000),
   (143126357092944380000, 99399625901024269000000, 69707567353878175000000),
   (127832928074806080000, 600374098975731130000, 78548608630426942000000),
   (292492670808215450000, 3136330379964702400000, 78548608630426942000000),
   (445431962076120980000, 7589670829478639700000, 78548608630426942000000),
   (580157644353028120000, 13779113431991497000000, 78548608630426942000000),
   (691136220075347100000, 21451391369573058000000, 78548608630426942000000),
   (773821040667123030000, 30292432646121831000000, 78548608630426942000000),
   (824826136860633100000, 39940295300128276000000, 78548608630426942000000),
   (842063085019148330000, 50000000000000000000000, 78548608630426942000000),
   (824826136860633100000, 60059704699871730000000, 78548608630426942000000),
   (773821040667123030000, 69707567353878175000000, 78548608630426942000000),
   (691136220075347100000, 78548608630426942000000, 78548608630426942000000),
   (580157644353028120000, 86220886568008503000000, 78548608630426942000000),
   (445431962076120980000, 92410329170521366000000, 78548608630426942000000),
   (292492670808215450000, 96863669620035298000000, 78548608630426942000000),
   (127832928074806080000, 99399625901024269000000, 78548608630426942000000),
   (107306270845629170000, 600374098975731130000, 86220886568008503000000),
   (245525923772480470000, 3136330379964702400000, 86220886568008503000000),
   (373907126166035490000, 7589670829478639700000, 86220886568008503000000),
   (486999353419157510000, 13779113431991497000000, 86220886568008503000000),
   (580157644353028120000, 21451391369573058000000, 86220886568008503000000),
   (649565424389571090000, 30292432646121831000000, 86220886568008503000000),
   (692380423224967650000, 39940295300128276000000, 86220886568008503000000),
   (706849563965977150000, 50000000000000000000000, 86220886568008503000000),
   (692380423224967650000, 60059704699871730000000, 86220886568008503000000),
   (649565424389571090000, 69707567353878175000000, 86220886568008503000000),
   (580157644353028120000, 78548608630426942000000, 86220886568008503000000),
   (486999353419157510000, 86220886568008503000000, 86220886568008503000000),
   (373907126166035490000, 92410329170521366000000, 86220886568008503000000),
   (245525923772480470000, 96863669620035298000000, 86220886568008503000000),
   (107306270845629170000, 99399625901024269000000, 86220886568008503000000),
   (82387335978555533000, 600374098975731130000, 92410329170521366000000),
   (188509269904541710000, 3136330379964702400000, 92410329170521366000000),
   (287077463278299050000, 7589670829478639700000, 92410329170521366000000),
   (373907126166035490000, 13779113431991497000000, 92410329170521366000000),
   (445431962076120980000, 21451391369573058000000, 92410329170521366000000),
   (498721691076420720000, 30292432646121831000000, 92410329170521366000000),
   (531594082094908550000, 39940295300128276000000, 92410329170521366000000),
   (542703162208832930000, 50000000000000000000000, 92410329170521366000000),
   (531594082094908550000, 60059704699871730000000, 92410329170521366000000),
   (498721691076420720000, 69707567353878175000000, 92410329170521366000000),
   (445431962076120980000, 78548608630426942000000, 92410329170521366000000),
   (373907126166035490000, 86220886568008503000000, 92410329170521366000000),
   (287077463278299050000, 92410329170521366000000, 92410329170521366000000),
   (188509269904541710000, 96863669620035298000000, 92410329170521366000000),
   (82387335978555533000, 99399625901024269000000, 92410329170521366000000),
   (54099602167801721000, 600374098975731130000, 96863669620035298000000),
   (123784515977467200000, 3136330379964702400000, 96863669620035298000000),
   (188509269904541710000, 7589670829478639700000, 96863669620035298000000),
   (245525923772480470000, 13779113431991497000000, 96863669620035298000000),
   (292492670808215450000, 21451391369573058000000, 96863669620035298000000),
   (327485344188218700000, 30292432646121831000000, 96863669620035298000000),
   (349070982991584120000, 39940295300128276000000, 96863669620035298000000),
   (356365754784787560000, 50000000000000000000000, 96863669620035298000000),
   (349070982991584120000, 60059704699871730000000, 96863669620035298000000),
   (327485344188218700000, 69707567353878175000000, 96863669620035298000000),
   (292492670808215450000, 78548608630426942000000, 96863669620035298000000),
   (245525923772480470000, 86220886568008503000000, 96863669620035298000000),
   (188509269904541710000, 92410329170521366000000, 96863669620035298000000),
   (123784515977467200000, 96863669620035298000000, 96863669620035298000000),
   (54099602167801721000, 99399625901024269000000, 96863669620035298000000),
   (23644047331793772000, 600374098975731130000, 99399625901024269000000),
   (54099602167801721000, 3136330379964702400000, 99399625901024269000000),
   (82387335978555533000, 7589670829478639700000, 99399625901024269000000),
   (107306270845629170000, 13779113431991497000000, 99399625901024269000000),
   (127832928074806080000, 21451391369573058000000, 99399625901024269000000),
   (143126357092944380000, 30292432646121831000000, 99399625901024269000000),
   (152560287197841380000, 39940295300128276000000, 99399625901024269000000),
   (155748442427119400000, 50000000000000000000000, 99399625901024269000000),
   (152560287197841380000, 60059704699871730000000, 99399625901024269000000),
   (143126357092944380000, 69707567353878175000000, 99399625901024269000000),
   (127832928074806080000, 78548608630426942000000, 99399625901024269000000),
   (107306270845629170000, 86220886568008503000000, 99399625901024269000000),
   (82387335978555533000, 92410329170521366000000, 99399625901024269000000),
   (54099602167801721000, 96863669620035298000000, 99399625901024269000000),
   (23644047331793772000, 99399625901024269000000, 99399625901024269000000)]

/-- Gauss rule on the square, number of points: 256 (`GeDiM/src/Quadrature/Quadrature_Gauss2D_Square.cpp:3836-4607`). -/
def squareTab31 : List (ℕ × ℕ × ℕ) :=
  [(18431401302673839000, 529953250417503070000, 529953250417503070000),
   (42258407049569971000, 2771248846338370000000, 529953250417503070000),
   (64594690653545337000, 6718439880608412200000, 529953250417503070000),
   (84599577088613790000, 12229779582249850000000, 529953250417503070000),
   (101547475362582990000, 19106187779867811000000, 529953250417503070000),
   (114825388177660020000, 27099161117138632000000, 529953250417503070000),
   (123953295386374360000, 35919822461037054000000, 529953250417503070000),
   (128601250272832100000, 45249374508118129000000, 529953250417503070000),
   (128601250272832100000, 54750625491881877000000, 529953250417503070000),
   (123953295386374360000, 64080177538962946000000, 529953250417503070000),
   (114825388177660020000, 72900838882861363000000, 529953250417503070000),
   (101547475362582990000, 80893812220132189000000, 529953250417503070000),
   (84599577088613790000, 87770220417750155000000, 529953250417503070000),
   (64594690653545337000, 93281560119391593000000, 529953250417503070000),
   (42258407049569971000, 97228751153661630000000, 529953250417503070000),
   (18431401302673839000, 99470046749582497000000, 529953250417503070000),
   (42258407049569971000, 529953250417503070000, 2771248846338370000000),
   (96887531069495155000, 2771248846338370000000, 2771248846338370000000),
   (148098817124804260000, 6718439880608412200000, 2771248846338370000000),
   (193964816137635950000, 12229779582249850000000, 2771248846338370000000),
   (232821936772961570000, 19106187779867811000000, 2771248846338370000000),
   (263264735738378670000, 27099161117138632000000, 2771248846338370000000),
   (284192651744450200000, 35919822461037054000000, 2771248846338370000000),
   (294849202828901610000, 45249374508118129000000, 2771248846338370000000),
   (294849202828901610000, 54750625491881877000000, 2771248846338370000000),
   (284192651744450200000, 64080177538962946000000, 2771248846338370000000),
   (263264735738378670000, 72900838882861363000000, 2771248846338370000000),
   (232821936772961570000, 80893812220132189000000, 2771248846338370000000),
   (193964816137635950000, 87770220417750155000000, 2771248846338370000000),
   (148098817124804260000, 93281560119391593000000, 2771248846338370000000),
   (96887531069495155000, 97228751153661630000000, 2771248846338370000000),
   (42258407049569971000, 99470046749582497000000, 2771248846338370000000),
   (64594690653545337000, 529953250417503070000, 6718439880608412200000),
   (148098817124804260000, 2771248846338370000000, 6718439880608412200000),
   (226378558640677900000, 6718439880608412200000, 6718439880608412200000),
   (296487685429919430000, 12229779582249850000000, 6718439880608412200000),
   (355883291236406930000, 19106187779867811000000, 6718439880608412200000),
   (402417065675479170000, 27099161117138632000000, 6718439880608412200000),
   (434406730095386000000, 35919822461037054000000, 6718439880608412200000),
   (450695953206100680000, 45249374508118129000000, 6718439880608412200000),
   (450695953206100680000, 54750625491881877000000, 6718439880608412200000),
   (434406730095386000000, 64080177538962946000000, 6718439880608412200000),
   (402417065675479170000, 72900838882861363000000, 6718439880608412200000),
   (355883291236406930000, 80893812220132189000000, 6718439880608412200000),
   (296487685429919430000, 87770220417750155000000, 6718439880608412200000),
   (226378558640677900000, 93281560119391593000000, 6718439880608412200000),
   (148098817124804260000, 97228751153661630000000, 6718439880608412200000),
   (64594690653545337000, 99470046749582497000000, 6718439880608412200000),
   (84599577088613790000, 529953250417503070000, 12229779582249850000000),
   (193964816137635950000, 2771248846338370000000, 12229779582249850000000),
   (296487685429919430000, 6718439880608412200000, 12229779582249850000000),
   (388309511905317230000, 12229779582249850000000, 12229779582249850000000),
   (466099854754107710000, 19106187779867811000000, 12229779582249850000000),
   (527045074834148280000, 27099161117138632000000, 12229779582249850000000),
   (568941894119902570000, 35919822461037054000000, 12229779582249850000000),
   (590275867118701930000, 45249374508118129000000, 12229779582249850000000),
   (590275867118701930000, 54750625491881877000000, 12229779582249850000000),
   (568941894119902570000, 64080177538962946000000, 12229779582249850000000),
   (527045074834148280000, 72900838882861363000000, 12229779582249850000000),
   (466099854754107710000, 80893812220132189000000, 12229779582249850000000),
   (388309511905317230000, 87770220417750155000000, 12229779582249850000000),
   (296487685429919430000, 93281560119391593000000, 12229779582249850000000),
   (193964816137635950000, 97228751153661630000000, 12229779582249850000000),
   (84599577088613790000, 99470046749582497000000, 12229779582249850000000),
   (101547475362582990000, 529953250417503070000, 19106187779867811000000),
   (232821936772961570000, 2771248846338370000000, 19106187779867811000000),
   (355883291236406930000, 6718439880608412200000, 19106187779867811000000),
   (466099854754107710000, 12229779582249850000000, 19106187779867811000000),
   (559473996750233830000, 19106187779867811000000, 19106187779867811000000),
   (632628419591646160000, 27099161117138632000000, 19106187779867811000000),
   (682918460873227760000, 35919822461037054000000, 19106187779867811000000),
   (708526285073251580000, 45249374508118129000000, 19106187779867811000000),
   (708526285073251580000, 54750625491881877000000, 19106187779867811000000),
   (682918460873227760000, 64080177538962946000000, 19106187779867811000000),
   (632628419591646160000, 72900838882861363000000, 19106187779867811000000),
   (559473996750233830000, 80893812220132189000000, 19106187779867811000000),
   (466099854754107710000, 87770220417750155000000, 19106187779867811000000),
   (355883291236406930000, 93281560119391593000000, 19106187779867811000000),
   (232821936772961570000, 97228751153661630000000, 19106187779867811000000),
   (101547475362582990000, 99470046749582497000000, 19106187779867811000000),
   (114825388177660020000, 529953250417503070000, 27099161117138632000000),
   (263264735738378670000, 2771248846338370000000, 27099161117138632000000),
   (402417065675479170000, 6718439880608412200000, 27099161117138632000000),
   (527045074834148280000, 12229779582249850000000, 27099161117138632000000),
   (632628419591646160000, 19106187779867811000000, 27099161117138632000000),
   (715348201345796740000, 27099161117138632000000, 27099161117138632000000),
   (772213952966007820000, 35919822461037054000000, 27099161117138632000000),
   (801170146545946570000, 45249374508118129000000, 27099161117138632000000),
   (801170146545946570000, 54750625491881877000000, 27099161117138632000000),
   (772213952966007820000, 64080177538962946000000, 27099161117138632000000),
   (715348201345796740000, 72900838882861363000000, 27099161117138632000000),
   (632628419591646160000, 80893812220132189000000, 27099161117138632000000),
   (527045074834148280000, 87770220417750155000000, 27099161117138632000000),
   (402417065675479170000, 93281560119391593000000, 27099161117138632000000),
   (263264735738378670000, 97228751153661630000000, 27099161117138632000000),
   (114825388177660020000, 99470046749582497000000, 27099161117138632000000),
   (123953295386374360000, 529953250417503070000, 35919822461037054000000),
   (284192651744450200000, 2771248846338370000000, 35919822461037054000000),
   (434406730095386000000, 6718439880608412200000, 35919822461037054000000),
   (568941894119902570000, 12229779582249850000000, 35919822461037054000000),
   (682918460873227760000, 19106187779867811000000, 35919822461037054000000),
   (772213952966007820000, 27099161117138632000000, 35919822461037054000000),
   (833600179651715690000, 35919822461037054000000, 35919822461037054000000),
   (864858211286025250000, 45249374508118129000000, 35919822461037054000000),
   (864858211286025250000, 54750625491881877000000, 35919822461037054000000),
   (833600179651715690000, 64080177538962946000000, 35919822461037054000000),
   (772213952966007820000, 72900838882861363000000, 35919822461037054000000),
   (682918460873227760000, 80893812220132189000000, 35919822461037054000000),
   (568941894119902570000, 87770220417750155000000, 35919822461037054000000),
   (434406730095386000000, 93281560119391593000000, 35919822461037054000000),
   (284192651744450200000, 97228751153661630000000, 35919822461037054000000),
   (123953295386374360000, 99470046749582497000000, 35919822461037054000000),
   (128601250272832100000, 529953250417503070000, 45249374508118129000000),
   (294849202828901610000, 2771248846338370000000, 45249374508118129000000),
   (450695953206100680000, 6718439880608412200000, 45249374508118129000000),
   (590275867118701930000, 12229779582249850000000, 45249374508118129000000),
   (708526285073251580000, 19106187779867811000000, 45249374508118129000000),
   (801170146545946570000, 27099161117138632000000, 45249374508118129000000),
   (864858211286025250000, 35919822461037054000000, 45249374508118129000000),
   (897288345044952760000, 45249374508118129000000, 45249374508118129000000),
   (897288345044952760000, 54750625491881877000000, 45249374508118129000000),
   (864858211286025250000, 64080177538962946000000, 45249374508118129000000),
   (801170146545946570000, 72900838882861363000000, 45249374508118129000000),
   (708526285073251580000, 80893812220132189000000, 45249374508118129000000),
   (590275867118701930000, 87770220417750155000000, 45249374508118129000000),
   (450695953206100680000, 93281560119391593000000, 45249374508118129000000),
   (294849202828901610000, 97228751153661630000000, 45249374508118129000000),
   (128601250272832100000, 99470046749582497000000, 45249374508118129000000),
   (128601250272832100000, 529953250417503070000, 54750625491881877000000),
   (294849202828901610000, 2771248846338370000000, 54750625491881877000000),
   (450695953206100680000, 6718439880608412200000, 54750625491881877000000),
   (590275867118701930000, 12229779582249850000000, 54750625491881877000000),
   (708526285073251580000, 19106187779867811000000, 54750625491881877000000),
   (801170146545946570000, 27099161117138632000000, 54750625491881877000000),
   (864858211286025250000, 35919822461037054000000, 54750625491881877000000),
   (897288345044952760000, 45249374508118129000000, 54750625491881877000000),
   (897288345044952760000, 54750625491881877000000, 54750625491881877000000),
   (864858211286025250000, 64080177538962946000000, 54750625491881877000000),
   (801170146545946570000, 72900838882861363000000, 54750625491881877000000),
   (708526285073251580000, 80893812220132189000000, 54750625491881877000000),
   (590275867118701930000, 87770220417750155000000, 54750625491881877000000),
   (450695953206100680000, 93281560119391593000000, 54750625491881877000000),
   (294849202828901610000, 97228751153661630000000, 54750625491881877000000),
   (128601250272832100000, 99470046749582497000000, 54750625491881877000000),
   (123953295386374360000, 529953250417503070000, 64080177538962946000000),
   (284192651744450200000, 2771248846338370000000, 64080177538962946000000),
   (434406730095386000000, 6718439880608412200000, 64080177538962946000000),
   (568941894119902570000, 12229779582249850000000, 64080177538962946000000),
   (682918460873227760000, 19106187779867811000000, 64080177538962946000000),
   (772213952966007820000, 27099161117138632000000, 64080177538962946000000),
   (833600179651715690000, 35919822461037054000000, 64080177538962946000000),
   (864858211286025250000, 45249374508118129000000, 64080177538962946000000),
   (864858211286025250000, 54750625491881877000000, 64080177538962946000000),
   (833600179651715690000, 64080177538962946000000, 64080177538962946000000),
   (772213952966007820000, 72900838882861363000000, 64080177538962946000000),
   (682918460873227760000, 80893812220132189000000, 64080177538962946000000),
   (568941894119902570000, 87770220417750155000000, 64080177538962946000000),
   (434406730095386000000, 93281560119391593000000, 64080177538962946000000),
   (284192651744450200000, 97228751153661630000000, 64080177538962946000000),
   (123953295386374360000, 99470046749582497000000, 64080177538962946000000),
   (114825388177660020000, 529953250417503070000, 72900838882861363000000),
   (263264735738378670000, 2771248846338370000000, 72900838882861363000000),
   (402417065675479170000, 6718439880608412200000, 72900838882861363000000),
   (527045074834148280000, 12229779582249850000000, 72900838882861363000000),
   (632628419591646160000, 19106187779867811000000, 72900838882861363000000),
   (715348201345796740000, 27099161117138632000000, 72900838882861363000000),
   (772213952966007820000, 35919822461037054000000, 72900838882861363000000),
   (801170146545946570000, 45249374508118129000000, 72900838882861363000000),
   (801170146545946570000, 54750625491881877000000, 72900838882861363000000),
   (772213952966007820000, 64080177538962946000000, 72900838882861363000000),
   (715348201345796740000, 72900838882861363000000, 72900838882861363000000),
   (632628419591646160000, 80893812220132189000000, 72900838882861363000000),
   (527045074834148280000, 87770220417750155000000, 72900838882861363000000),
   (402417065675479170000, 93281560119391593000000, 72900838882861363000000),
   (263264735738378670000, 97228751153661630000000, 72900838882861363000000),
   (114825388177660020000, 99470046749582497000000, 72900838882861363000000),
   (101547475362582990000, 529953250417503070000, 80893812220132189000000),
   (232821936772961570000, 2771248846338370000000, 80893812220132189000000),
   (355883291236406930000, 6718439880608412200000, 80893812220132189000000),
   (466099854754107710000, 12229779582249850000000, 80893812220132189000000),
   (559473996750233830000, 19106187779867811000000, 80893812220132189000000),
   (632628419591646160000, 27099161117138632000000, 80893812220132189000000),
   (682918460873227760000, 35919822461037054000000, 80893812220132189000000),
   (708526285073251580000, 45249374508118129000000, 80893812220132189000000),
   (708526285073251580000, 54750625491881877000000, 80893812220132189000000),
   (682918460873227760000, 64080177538962946000000, 80893812220132189000000),
   (632628419591646160000, 72900838882861363000000, 80893812220132189000000),
   (559473996750233830000, 80893812220132189000000, 80893812220132189000000),
   (466099854754107710000, 87770220417750155000000, 80893812220132189000000),
   (355883291236406930000, 93281560119391593000000, 80893812220132189000000),
   (232821936772961570000, 97228751153661630000000, 80893812220132189000000),
   (101547475362582990000, 99470046749582497000000, 80893812220132189000000),
   (84599577088613790000, 529953250417503070000, 87770220417750155000000),
   (193964816137635950000, 2771248846338370000000, 87770220417750155000000),
   (296487685429919430000, 6718439880608412200000, 87770220417750155000000),
   (388309511905317230000, 12229779582249850000000, 87770220417750155000000),
   (466099854754107710000, 19106187779867811000000, 87770220417750155000000),
   (527045074834148280000, 27099161117138632000000, 87770220417750155000000),
   (568941894119902570000, 35919822461037054000000, 87770220417750155000000),
   (590275867118701930000, 45249374508118129000000, 87770220417750155000000),
   (590275867118701930000, 54750625491881877000000, 87770220417750155000000),
   (568941894119902570000, 64080177538962946000000, 87770220417750155000000),
   (527045074834148280000, 72900838882861363000000, 87770220417750155000000),
   (466099854754107710000, 80893812220132189000000, 87770220417750155000000),
   (388309511905317230000, 87770220417750155000000, 87770220417750155000000),
   (296487685429919430000, 93281560119391593000000, 87770220417750155000000),
   (193964816137635950000, 97228751153661630000000, 87770220417750155000000),
   (84599577088613790000, 99470046749582497000000, 87770220417750155000000),
   (64594690653545337000, 529953250417503070000, 93281560119391593000000),
   (148098817124804260000, 2771248846338370000000, 93281560119391593000000),
   (226378558640677900000, 6718439880608412200000, 93281560119391593000000),
   (296487685429919430000, 12229779582249850000000, 93281560119391593000000),
   (355883291236406930000, 19106187779867811000000, 93281560119391593000000),
   (402417065675479170000, 27099161117138632000000, 93281560119391593000000),
   (434406730095386000000, 35919822461037054000000, 93281560119391593000000),
   (450695953206100680000, 45249374508118129000000, 93281560119391593000000),
   (450695953206100680000, 54750625491881877000000, 93281560119391593000000),
   (434406730095386000000, 64080177538962946000000, 93281560119391593000000),
   (402417065675479170000, 72900838882861363000000, 93281560119391593000000),
   (355883291236406930000, 80893812220132189000000, 93281560119391593000000),
   (296487685429919430000, 87770220417750155000000, 93281560119391593000000),
   (226378558640677900000, 93281560119391593000000, 93281560119391593000000),
   (148098817124804260000, 97228751153661630000000, 93281560119391593000000),
   (64594690653545337000, 99470046749582497000000, 93281560119391593000000),
   (42258407049569971000, 529953250417503070000, 97228751153661630000000),
   (96887531069495155000, 2771248846338370000000, 97228751153661630000000),
   (148098817124804260000, 6718439880608412200000, 97228751153661630000000),
   (193964816137635950000, 12229779582249850000000, 97228751153661630000000),
   (232821936772961570000, 19106187779867811000000, 97228751153661630000000),
   (263264735738378670000, 27099161117138632000000, 97228751153661630000000),
   (284192651744450200000, 35919822461037054000000, 97228751153661630000000),
   (294849202828901610000, 45249374508118129000000, 97228751153661630000000),
   (294849202828901610000, 54750625491881877000000, 97228751153661630000000),
   (284192651744450200000, 64080177538962946000000, 97228751153661630000000),
   (263264735738378670000, 72900838882861363000000, 97228751153661630000000),
   (232821936772961570000, 80893812220132189000000, 97228751153661630000000),
   (193964816137635950000, 87770220417750155000000, 97228751153661630000000),
   (148098817124804260000, 93281560119391593000000, 97228751153661630000000),
   (96887531069495155000, 97228751153661630000000, 97228751153661630000000),
   (42258407049569971000, 99470046749582497000000, 97228751153661630000000),
   (18431401302673839000, 529953250417503070000, 99470046749582497000000),
   (42258407049569971000, 2771248846338370000000, 99470046749582497000000),
   (64594690653545337000, 6718439880608412200000, 99470046749582497000000),
   (84599577088613790000, 12229779582249850000000, 99470046749582497000000),
   (101547475362582990000, 19106187779867811000000, 99470046749582497000000),
   (114825388177660020000, 27099161117138632000000, 99470046749582497000000),
   (123953295386374360000, 35919822461037054000000, 99470046749582497000000),
   (128601250272832100000, 45249374508118129000000, 99470046749582497000000),
   (128601250272832100000, 54750625491881877000000, 99470046749582497000000),
   (123953295386374360000, 64080177538962946000000, 99470046749582497000000),
   (114825388177660020000, 72900838882861363000000, 99470046749582497000000),
   (101547475362582990000, 80893812220132189000000, 99470046749582497000000),
   (84599577088613790000, 87770220417750155000000, 99470046749582497000000),
   (64594690653545337000, 93281560119391593000000, 99470046749582497000000),
   (42258407049569971000, 97228751153661630000000, 99470046749582497000000),
   (18431401302673839000, 99470046749582497000000, 99470046749582497000000)]

end Verif
