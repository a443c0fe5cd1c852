import Mathlib.Data.Nat.Notation
import Mathlib.Data.Int.Notation

/-
Tables of the quadrature rules on the segment.

A decimal constant c of the source is stored as the integer c * 10^23; a row is (weight, x). The
rounding of the constants to doubles is left out.
-/
namespace Verif

/-- Gauss rule on the segment, number of points: 1 (`GeDiM/src/Quadrature/Quadrature_Gauss1D.hpp:33-38`). -/
def gauss1Tab1 : List (ℕ × ℕ) :=
  [(100000000000000000000000, 50000000000000000000000)]

/-- Gauss rule on the segment, number of points: 2 (`GeDiM/src/Quadrature/Quadrature_Gauss1D.hpp:41-48`). -/
def gauss1Tab3 : List (ℕ × ℕ) :=
  [(50000000000000000000000, 21132486540518713000000),
   (50000000000000000000000, 78867513459481287000000)]

/-- Gauss rule on the segment, number of points: 3 (`GeDiM/src/Quadrature/Quadrature_Gauss1D.hpp:51-60`). -/
def gauss1Tab5 : List (ℕ × ℕ) :=
  [(27777777777777779000000, 11270166537925830000000),
   (44444444444444442000000, 50000000000000000000000),
   (27777777777777779000000, 88729833462074170000000)]

/-- Gauss rule on the segment, number of points: 4 (`GeDiM/src/Quadrature/Quadrature_Gauss1D.hpp:63-74`). -/
def gauss1Tab7 : List (ℕ × ℕ) :=
  [(17392742256872692000000, 6943184420297371400000),
   (32607257743127305000000, 33000947820757187000000),
   (32607257743127305000000, 66999052179242813000000),
   (17392742256872692000000, 93056815579702623000000)]

/-- Gauss rule on the segment, number of points: 5 (`GeDiM/src/Quadrature/Quadrature_Gauss1D.hpp:77-90`). -/
def gauss1Tab9 : List (ℕ × ℕ) :=
  [(11846344252809454000000, 4691007703066801800000),
   (23931433524968324000000, 23076534494715845000000),
   (28444444444444444000000, 50000000000000000000000),
   (23931433524968324000000, 76923465505284150000000),
   (11846344252809454000000, 95308992296933193000000)]

/-- Gauss rule on the segment, number of points: 6 (`GeDiM/src/Quadrature/Quadrature_Gauss1D.hpp:93-108`). -/
def gauss1Tab11 : List (ℕ × ℕ) :=
  [(8566224618958517800000, 3376524289842397500000),
   (18038078652406930000000, 16939530676686776000000),
   (23395696728634552000000, 38069040695840156000000),
   (23395696728634552000000, 61930959304159849000000),
   (18038078652406930000000, 83060469323313224000000),
   (8566224618958517800000, 96623475710157603000000)]

/-- Gauss rule on the segment, number of points: 7 (`GeDiM/src/Quadrature/Quadrature_Gauss1D.hpp:111-128`). -/
def gauss1Tab13 : List (ℕ × ℕ) :=
  [(6474248308443485100000, 2544604382862075700000),
   (13985269574463832000000, 12923440720030277000000),
   (19091502525255946000000, 29707742431130141000000),
   (20897959183673470000000, 50000000000000000000000),
   (19091502525255946000000, 70292257568869854000000),
   (13985269574463832000000, 87076559279969723000000),
   (6474248308443485100000, 97455395617137919000000)]

/-- Gauss rule on the segment, number of points: 8 (`GeDiM/src/Quadrature/Quadrature_Gauss1D.hpp:131-150`). -/
def gauss1Tab15 : List (ℕ × ℕ) :=
  [(5061426814518812900000, 1985507175123191200000),
   (11119051722668724000000, 10166676129318664000000),
   (15685332293894363000000, 23723379504183550000000),
   (18134189168918100000000, 40828267875217511000000),
   (18134189168918100000000, 59171732124782495000000),
   (15685332293894363000000, 76276620495816450000000),
   (11119051722668724000000, 89833323870681336000000),
   (5061426814518812900000, 98014492824876809000000)]

/-- Gauss rule on the segment, number of points: 9 (`GeDiM/src/Quadrature/Quadrature_Gauss1D.hpp:153-174`). -/
def gauss1Tab17 : List (ℕ × ℕ) :=
  [(4063719418078720600000, 1591988024618695700000),
   (9032408034742869800000, 8198444633668211500000),
   (13030534820146772000000, 19331428364970482000000),
   (15617353852000143000000, 33787328829809554000000),
   (16511967750062989000000, 50000000000000000000000),
   (15617353852000143000000, 66212671170190451000000),
   (13030534820146772000000, 80668571635029518000000),
   (9032408034742869800000, 91801555366331788000000),
   (4063719418078720600000, 98408011975381304000000)]

/-- Gauss rule on the segment, number of points: 10 (`GeDiM/src/Quadrature/Quadrature_Gauss1D.hpp:177-200`). -/
def gauss1Tab19 : List (ℕ × ℕ) :=
  [(3333567215434406900000, 1304673574141412800000),
   (7472567457529029300000, 6746831665550773200000),
   (10954318125799102000000, 16029521585048778000000),
   (13463335965499817000000, 28330230293537639000000),
   (14776211235737644000000, 42556283050918442000000),
   (14776211235737644000000, 57443716949081558000000),
   (13463335965499817000000, 71669769706462361000000),
   (10954318125799102000000, 83970478414951222000000),
   (7472567457529029300000, 93253168334449232000000),
   (3333567215434406900000, 98695326425858587000000)]

/-- Gauss rule on the segment, number of points: 11 (`GeDiM/src/Quadrature/Quadrature_Gauss1D.hpp:203-228`). -/
def gauss1Tab21 : List (ℕ × ℕ) :=
  [(2783428355808683200000, 1088567092697151400000),
   (6279018473245230600000, 5646870011595234200000),
   (9314510546386713100000, 13492399721297532000000),
   (11659688229599524000000, 24045193539659410000000),
   (13140227225512333000000, 36522842202382755000000),
   (13646254338895031000000, 50000000000000000000000),
   (13140227225512333000000, 63477157797617245000000),
   (11659688229599524000000, 75954806460340585000000),
   (9314510546386713100000, 86507600278702468000000),
   (6279018473245230600000, 94353129988404771000000),
   (2783428355808683200000, 98911432907302843000000)]

/-- Gauss rule on the segment, number of points: 12 (`GeDiM/src/Quadrature/Quadrature_Gauss1D.hpp:231-258`). -/
def gauss1Tab23 : List (ℕ × ℕ) :=
  [(2358766819325591400000, 921968287664037820000),
   (5346966299765921300000, 4794137181476254600000),
   (8003916427167311100000, 11504866290284765000000),
   (10158371336153296000000, 20634102285669126000000),
   (11674626826917740000000, 31608425050090994000000),
   (12457352290670139000000, 43738329574426554000000),
   (12457352290670139000000, 56261670425573440000000),
   (11674626826917740000000, 68391574949909006000000),
   (10158371336153296000000, 79365897714330869000000),
   (8003916427167311100000, 88495133709715235000000),
   (5346966299765921300000, 95205862818523745000000),
   (2358766819325591400000, 99078031712335957000000)]

/-- Gauss rule on the segment, number of points: 13 (`GeDiM/src/Quadrature/Quadrature_Gauss1D.hpp:261-290`). -/
def gauss1Tab25 : List (ℕ × ℕ) :=
  [(2024200238265793900000, 790847264070593250000),
   (4606074991886422600000, 4120080038851103900000),
   (6943675510989362500000, 9921095463334506100000),
   (8907299038097286900000, 17882533027982989000000),
   (10390802376844425000000, 27575362448177654000000),
   (11314159013144862000000, 38477084202243261000000),
   (11627577661543695000000, 50000000000000000000000),
   (11314159013144862000000, 61522915797756739000000),
   (10390802376844425000000, 72424637551822346000000),
   (8907299038097286900000, 82117466972017006000000),
   (6943675510989362500000, 90078904536665494000000),
   (4606074991886422600000, 95879919961148896000000),
   (2024200238265793900000, 99209152735929407000000)]

/-- Gauss rule on the segment, number of points: 14 (`GeDiM/src/Quadrature/Quadrature_Gauss1D.hpp:293-324`). -/
def gauss1Tab27 : List (ℕ × ℕ) :=
  [(1755973016587593000000, 685809565159384290000),
   (4007904357988010400000, 3578255816821324100000),
   (6075928534395159300000, 8639934246511749000000),
   (7860158357909677300000, 15635354759415726000000),
   (9276919873896891100000, 24237568182092295000000),
   (10259923186064780000000, 34044381553605513000000),
   (10763192673157890000000, 44597252564632817000000),
   (10763192673157890000000, 55402747435367183000000),
   (10259923186064780000000, 65955618446394482000000),
   (9276919873896891100000, 75762431817907705000000),
   (7860158357909677300000, 84364645240584268000000),
   (6075928534395159300000, 91360065753488251000000),
   (4007904357988010400000, 96421744183178681000000),
   (1755973016587593000000, 99314190434840621000000)]

/-- Gauss rule on the segment, number of points: 15 (`GeDiM/src/Quadrature/Quadrature_Gauss1D.hpp:327-360`). -/
def gauss1Tab29 : List (ℕ × ℕ) :=
  [(1537662099805863500000, 600374098975731130000),
   (3518302374405406200000, 3136330379964702400000),
   (5357961023358597000000, 7589670829478639700000),
   (6978533896307716200000, 13779113431991497000000),
   (8313460290849696000000, 21451391369573058000000),
   (9308050000778110600000, 30292432646121831000000),
   (9921574266355578900000, 39940295300128276000000),
   (10128912096278064000000, 50000000000000000000000),
   (9921574266355578900000, 60059704699871730000000),
   (9308050000778110600000, 69707567353878175000000),
   (8313460290849696000000, 78548608630426942000000),
   (6978533896307716200000, 86220886568008503000000),
   (5357961023358597000000, 92410329170521366000000),
   (3518302374405406200000, 96863669620035298000000),
   (1537662099805863500000, 99399625901024269000000)]

/-- Gauss rule on the segment, number of points: 16 (`GeDiM/src/Quadrature/Quadrature_Gauss1D.hpp:363-398`). -/
def gauss1Tab31 : List (ℕ × ℕ) :=
  [(1357622970587704800000, 529953250417503070000),
   (3112676196932394700000, 2771248846338370000000),
   (4757925584124639300000, 6718439880608412200000),
   (6231448562776693800000, 12229779582249850000000),
   (7479799440828836800000, 19106187779867811000000),
   (8457825969750126800000, 27099161117138632000000),
   (9130170752246179200000, 35919822461037054000000),
   (9472530522753425100000, 45249374508118129000000),
   (9472530522753425100000, 54750625491881877000000),
   (9130170752246179200000, 64080177538962946000000),
   (8457825969750126800000, 72900838882861363000000),
   (7479799440828836800000, 80893812220132189000000),
   (6231448562776693800000, 87770220417750155000000),
   (4757925584124639300000, 93281560119391593000000),
   (3112676196932394700000, 97228751153661630000000),
   (1357622970587704800000, 99470046749582497000000)]

/-- Gauss-Lobatto rule on the segment, number of points: 2 (`GeDiM/src/Quadrature/Quadrature_GaussLobatto1D.hpp:33-40`). -/
def lobatto1Tab1 : List (ℕ × ℕ) :=
  [(50000000000000000000000, 0),
   (50000000000000000000000, 100000000000000000000000)]

/-- Gauss-Lobatto rule on the segment, number of points: 3 (`GeDiM/src/Quadrature/Quadrature_GaussLobatto1D.hpp:43-52`). -/
def lobatto1Tab3 : List (ℕ × ℕ) :=
  [(16666666666666649000000, 0),
   (66666666666666652000000, 50000000000000000000000),
   (16666666666666649000000, 100000000000000000000000)]

/-- Gauss-Lobatto rule on the segment, number of points: 4 (`GeDiM/src/Quadrature/Quadrature_GaussLobatto1D.hpp:55-66`). -/
def lobatto1Tab5 : List (ℕ × ℕ) :=
  [(8333333333333332900000, 0),
   (41666666666666663000000, 27639320225002106000000),
   (41666666666666663000000, 72360679774997894000000),
   (8333333333333332900000, 100000000000000000000000)]

/-- Gauss-Lobatto rule on the segment, number of points: 5 (`GeDiM/src/Quadrature/Quadrature_GaussLobatto1D.hpp:69-82`). -/
def lobatto1Tab7 : List (ℕ × ℕ) :=
  [(5000000000000000300000, 0),
   (27222222222222220000000, 17267316464601151000000),
   (35555555555555557000000, 50000000000000000000000),
   (27222222222222220000000, 82732683535398843000000),
   (5000000000000000300000, 100000000000000000000000)]

/-- Gauss-Lobatto rule on the segment, number of points: 6 (`GeDiM/src/Quadrature/Quadrature_GaussLobatto1D.hpp:85-100`). -/
def lobatto1Tab9 : List (ℕ × ℕ) :=
  [(3333333333333333300000, 0),
   (18923747814892350000000, 11747233803526763000000),
   (27742918851774317000000, 35738424175967742000000),
   (27742918851774317000000, 64261575824032258000000),
   (18923747814892350000000, 88252766196473242000000),
   (3333333333333333300000, 100000000000000000000000)]

/-- Gauss-Lobatto rule on the segment, number of points: 7 (`GeDiM/src/Quadrature/Quadrature_GaussLobatto1D.hpp:103-120`). -/
def lobatto1Tab11 : List (ℕ × ℕ) :=
  [(2380952380952380800000, 0),
   (13841302368078298000000, 8488805186071651800000),
   (21587269060493131000000, 26557560326464291000000),
   (24380952380952381000000, 50000000000000000000000),
   (21587269060493131000000, 73442439673535709000000),
   (13841302368078298000000, 91511194813928354000000),
   (2380952380952380800000, 100000000000000000000000)]

/-- Gauss-Lobatto rule on the segment, number of points: 8 (`GeDiM/src/Quadrature/Quadrature_GaussLobatto1D.hpp:123-142`). -/
def lobatto1Tab13 : List (ℕ × ℕ) :=
  [(1785714285714285600000, 0),
   (10535211357175302000000, 6412992574519671400000),
   (17056134624175218000000, 20414990928342885000000),
   (20622939732935194000000, 39535039104876057000000),
   (20622939732935194000000, 60464960895123943000000),
   (17056134624175218000000, 79585009071657109000000),
   (10535211357175302000000, 93587007425480329000000),
   (1785714285714285600000, 100000000000000000000000)]

/-- Gauss-Lobatto rule on the segment, number of points: 9 (`GeDiM/src/Quadrature/Quadrature_GaussLobatto1D.hpp:145-166`). -/
def lobatto1Tab15 : List (ℕ × ℕ) :=
  [(1388888888888888800000, 0),
   (8274768078040276000000, 5012100229426991200000),
   (13726935625008085000000, 16140686024463113000000),
   (17321425548652317000000, 31844126808691092000000),
   (18575963718820862000000, 50000000000000000000000),
   (17321425548652317000000, 68155873191308913000000),
   (13726935625008085000000, 83859313975536887000000),
   (8274768078040276000000, 94987899770573003000000),
   (1388888888888888800000, 100000000000000000000000)]

/-- Gauss-Lobatto rule on the segment, number of points: 10 (`GeDiM/src/Quadrature/Quadrature_GaussLobatto1D.hpp:169-192`). -/
def lobatto1Tab17 : List (ℕ × ℕ) :=
  [(1111111111111111200000, 0),
   (6665299542553503000000, 4023304591677057100000),
   (11244467103156322000000, 13061306744724743000000),
   (14602134183984189000000, 26103752509477773000000),
   (16376988059194872000000, 41736052116680650000000),
   (16376988059194872000000, 58263947883319345000000),
   (14602134183984189000000, 73896247490522227000000),
   (11244467103156322000000, 86938693255275257000000),
   (6665299542553503000000, 95976695408322943000000),
   (1111111111111111200000, 100000000000000000000000)]

/-- Gauss-Lobatto rule on the segment, number of points: 11 (`GeDiM/src/Quadrature/Quadrature_GaussLobatto1D.hpp:194-219`). -/
def lobatto1Tab19 : List (ℕ × ℕ) :=
  [(909090909090909050000, 0),
   (5480613663349741300000, 3299928479597041800000),
   (9358494089015259600000, 10775826316842779000000),
   (12402405213201415000000, 21738233650189748000000),
   (14343956238950392000000, 35212093220653029000000),
   (15010879772784536000000, 50000000000000000000000),
   (14343956238950392000000, 64787906779346971000000),
   (12402405213201415000000, 78261766349810258000000),
   (9358494089015259600000, 89224173683157226000000),
   (5480613663349741300000, 96700071520402964000000),
   (909090909090909050000, 100000000000000000000000)]

/-- Gauss-Lobatto rule on the segment, number of points: 12 (`GeDiM/src/Quadrature/Quadrature_GaussLobatto1D.hpp:221-248`). -/
def lobatto1Tab21 : List (ℕ × ℕ) :=
  [(757575757575757600000, 0),
   (4584225870659812400000, 2755036388855891500000),
   (7898735278218502200000, 9036033917799668500000),
   (10625420888051065000000, 18356192348406969000000),
   (12563780159960064000000, 30023452951732554000000),
   (13570262045534809000000, 43172353357253623000000),
   (13570262045534809000000, 56827646642746377000000),
   (12563780159960064000000, 69976547048267446000000),
   (10625420888051065000000, 81643807651593026000000),
   (7898735278218502200000, 90963966082200332000000),
   (4584225870659812400000, 97244963611144108000000),
   (757575757575757600000, 100000000000000000000000)]

/-- Gauss-Lobatto rule on the segment, number of points: 13 (`GeDiM/src/Quadrature/Quadrature_GaussLobatto1D.hpp:250-279`). -/
def lobatto1Tab23 : List (ℕ × ℕ) :=
  [(641025641025641000000, 0),
   (3890084337340948100000, 2334507667891805300000),
   (6749096334480420000000, 7682621767406383500000),
   (9182343260177508500000, 15690576545912127000000),
   (11038389678305506000000, 25854508945433191000000),
   (12200789515333813000000, 37535653494688004000000),
   (12596542466672336000000, 50000000000000000000000),
   (12200789515333813000000, 62464346505311996000000),
   (11038389678305506000000, 74145491054566803000000),
   (9182343260177508500000, 84309423454087873000000),
   (6749096334480420000000, 92317378232593617000000),
   (3890084337340948100000, 97665492332108195000000),
   (641025641025641000000, 100000000000000000000000)]

/-- Gauss-Lobatto rule on the segment, number of points: 14 (`GeDiM/src/Quadrature/Quadrature_GaussLobatto1D.hpp:281-312`). -/
def lobatto1Tab25 : List (ℕ × ℕ) :=
  [(549450549450549490000, 0),
   (3341864224884058500000, 2003247736636953900000),
   (5829332794935574600000, 6609947308482638800000),
   (8001092588147600000000, 13556570045433691000000),
   (9741307468670802600000, 22468029853567645000000),
   (10956312650488541000000, 32863799332864357000000),
   (11580639723422859000000, 44183406555814808000000),
   (11580639723422849000000, 55816593444185192000000),
   (10956312650488541000000, 67136200667135637000000),
   (9741307468670802600000, 77531970146432361000000),
   (8001092588147600000000, 86443429954566309000000),
   (5829332794935574600000, 93390052691517367000000),
   (3341864224884058500000, 97996752263363041000000),
   (549450549450549490000, 100000000000000000000000)]

/-- Gauss-Lobatto rule on the segment, number of points: 15 (`GeDiM/src/Quadrature/Quadrature_GaussLobatto1D.hpp:314-347`). -/
def lobatto1Tab27 : List (ℕ × ℕ) :=
  [(476190476190476230000, 0),
   (2901494651430066800000, 1737703674808072100000),
   (5083003516285906200000, 5745897788851184200000),
   (7025584990121401500000, 11824015502409241000000),
   (8639482362680044000000, 19687339726507713000000),
   (9849361798230668600000, 28968097264316373000000),
   (10598679296341047000000, 39232302231810290000000),
   (10852405817440783000000, 50000000000000000000000),
   (10598679296341047000000, 60767697768189710000000),
   (9849361798230668600000, 71031902735683627000000),
   (8639482362680044000000, 80312660273492287000000),
   (7025584990121401500000, 88175984497590765000000),
   (5083003516285906200000, 94254102211148816000000),
   (2901494651430066800000, 98262296325191922000000),
   (476190476190476230000, 100000000000000000000000)]

/-- Gauss-Lobatto rule on the segment, number of points: 16 (`GeDiM/src/Quadrature/Quadrature_GaussLobatto1D.hpp:349-384`). -/
def lobatto1Tab29 : List (ℕ × ℕ) :=
  [(416666666666666660000, 0),
   (2542518050296001300000, 1521597686489101200000),
   (4469684866296534700000, 5039973345326398400000),
   (6212769106625702600000, 10399585406909245000000),
   (7701349040358213000000, 17380564855875347000000),
   (8874595669585205700000, 25697028905643116000000),
   (9684501191260180800000, 35008476554961843000000),
   (10097915408911501000000, 44933686323902527000000),
   (10097915408911501000000, 55066313676097467000000),
   (9684501191260180800000, 64991523445038157000000),
   (8874595669585205700000, 74302971094356884000000),
   (7701349040358213000000, 82619435144124653000000),
   (6212769106625702600000, 89600414593090760000000),
   (4469684866296534700000, 94960026654673602000000),
   (2542518050296001300000, 98478402313510904000000),
   (416666666666666660000, 100000000000000000000000)]

/-- Gauss-Lobatto rule on the segment, number of points: 17 (`GeDiM/src/Quadrature/Quadrature_GaussLobatto1D.hpp:386-423`). -/
def lobatto1Tab31 : List (ℕ × ℕ) :=
  [(367647058823529410000, 0),
   (2246097027162706800000, 1343391168429081100000),
   (3959913525184354700000, 4456000204221322000000),
   (5529645450351407300000, 9215187438911487400000),
   (6899387310096329100000, 15448550968615765000000),
   (8019733099881074000000, 22930730033494923000000),
   (8850212675782885600000, 31391278321726146000000),
   (9360816983880963800000, 40524401324084131000000),
   (9533093737673471700000, 50000000000000000000000),
   (9360816983880963800000, 59475598675915875000000),
   (8850212675782885600000, 68608721678273854000000),
   (8019733099881074000000, 77069269966505072000000),
   (6899387310096329100000, 84551449031384229000000),
   (5529645450351407300000, 90784812561088513000000),
   (3959913525184354700000, 95543999795778678000000),
   (2246097027162706800000, 98656608831570924000000),
   (367647058823529410000, 100000000000000000000000)]

/-- Gauss-Lobatto rule on the segment, number of points: 18 (`GeDiM/src/Quadrature/Quadrature_GaussLobatto1D.hpp:425-464`). -/
def lobatto1Tab33 : List (ℕ × ℕ) :=
  [(326797385620915040000, 0),
   (1998531440545697400000, 1194722129390074500000),
   (3531858344281682500000, 3967540732623303600000),
   (4950813585875139100000, 8220323239095489500000),
   (6210526656648354000000, 13816033535837868000000),
   (7270598078690115900000, 20574758284066913000000),
   (8096975861880120800000, 28279248154393799000000),
   (8663105474472818100000, 36681867356085951000000),
   (8950793171985153800000, 45512545325767395000000),
   (8950793171985153800000, 54487454674232605000000),
   (8663105474472818100000, 63318132643914049000000),
   (8096975861880120800000, 71720751845606201000000),
   (7270598078690115900000, 79425241715933081000000),
   (6210526656648354000000, 86183966464162132000000),
   (4950813585875139100000, 91779676760904505000000),
   (3531858344281682500000, 96032459267376691000000),
   (1998531440545697400000, 98805277870609931000000),
   (326797385620915040000, 100000000000000000000000)]

/-- Gauss-Lobatto rule on the segment, number of points: 19 (`GeDiM/src/Quadrature/Quadrature_GaussLobatto1D.hpp:466-507`). -/
def lobatto1Tab35 : List (ℕ × ℕ) :=
  [(292397660818713430000, 0),
   (1789668259308832200000, 1069411688895999200000),
   (3169094588131486600000, 3554923592370684600000),
   (4456587854960352600000, 7376971110167696000000),
   (5615767073865245800000, 12425289872369349000000),
   (6613364022437534500000, 18554593136738973000000),
   (7420697129796942300000, 25588535715964322000000),
   (8014546202203060000000, 33324757608775069000000),
   (8377829226357139100000, 41540698829535921000000),
   (8500095964241362300000, 50000000000000000000000),
   (8377829226357139100000, 58459301170464073000000),
   (8014546202203060000000, 66675242391224931000000),
   (7420697129796942300000, 74411464284035678000000),
   (6613364022437534500000, 81445406863261027000000),
   (5615767073865245800000, 87574710127630651000000),
   (4456587854960352600000, 92623028889832304000000),
   (3169094588131486600000, 96445076407629315000000),
   (1789668259308832200000, 98930588311103995000000),
   (292397660818713430000, 100000000000000000000000)]

/-- Gauss-Lobatto rule on the segment, number of points: 20 (`GeDiM/src/Quadrature/Quadrature_GaussLobatto1D.hpp:509-552`). -/
def lobatto1Tab37 : List (ℕ × ℕ) :=
  [(263157894736842100000, 0),
   (1611856159424446600000, 962814755304292060000),
   (2859090106378340100000, 3203275059366728100000),
   (4031588199805983400000, 6656101095502492400000),
   (5099574984972533900000, 11231586952397205000000),
   (6035461381433732800000, 16811179885484434000000),
   (6815024117936210900000, 23250356798405686000000),
   (7418077703545841700000, 30382340814304531000000),
   (7829005132373771700000, 38022414703850677000000),
   (8037164319392288400000, 45972703138058907000000),
   (8037164319392288400000, 54027296861941088000000),
   (7829005132373771700000, 61977585296149329000000),
   (7418077703545841700000, 69617659185695469000000),
   (6815024117936210900000, 76749643201594320000000),
   (6035461381433732800000, 83188820114515560000000),
   (5099574984972533900000, 88768413047602790000000),
   (4031588199805983400000, 93343898904497502000000),
   (2859090106378340100000, 96796724940633272000000),
   (1611856159424446600000, 99037185244695713000000),
   (263157894736842100000, 100000000000000000000000)]

/-- Gauss-Lobatto rule on the segment, number of points: 21 (`GeDiM/src/Quadrature/Quadrature_GaussLobatto1D.hpp:554-599`). -/
def lobatto1Tab39 : List (ℕ × ℕ) :=
  [(238095238095238120000, 0),
   (1459242004925278200000, 871385169772598280000),
   (2592158450042482100000, 2901185152012725200000),
   (3663695909253708600000, 6035262233820476400000),
   (4649273397894299700000, 10199903696114382000000),
   (5525854160956163200000, 15297448696888838000000),
   (6272906059543445500000, 21208401986908465000000),
   (6872923143002064600000, 27794210836049893000000),
   (7311843122398868600000, 34900507174561757000000),
   (7579378755584068000000, 42360724209890727000000),
   (7669259516608747900000, 50000000000000000000000),
   (7579378755584068000000, 57639275790109279000000),
   (7311843122398868600000, 65099492825438243000000),
   (6872923143002064600000, 72205789163950107000000),
   (6272906059543445500000, 78791598013091535000000),
   (5525854160956163200000, 84702551303111162000000),
   (4649273397894299700000, 89800096303885613000000),
   (3663695909253708600000, 93964737766179529000000),
   (2592158450042482100000, 97098814847987280000000),
   (1459242004925278200000, 99128614830227402000000),
   (238095238095238120000, 100000000000000000000000)]

/-- Gauss-Lobatto rule on the segment, number of points: 22 (`GeDiM/src/Quadrature/Quadrature_GaussLobatto1D.hpp:601-648`). -/
def lobatto1Tab41 : List (ℕ × ℕ) :=
  [(216450216450216450000, 0),
   (1327287384125083000000, 792378077117689150000),
   (2360723264687041000000, 2639785800038568800000),
   (3343280293227648300000, 5496885490454772600000),
   (4254503019591926400000, 9302553619403941500000),
   (5075028740082384400000, 13975638001939894000000),
   (5787382232696958200000, 19416528085787049000000),
   (6376384832671515300000, 25509256240504885000000),
   (6829484430687073100000, 32123964493054025000000),
   (7137024613568075700000, 39119670742035750000000),
   (7292450972212086200000, 46347272999455080000000),
   (7292450972212086200000, 53652727000544920000000),
   (7137024613568075700000, 60880329257964250000000),
   (6829484430687073100000, 67876035506945975000000),
   (6376384832671515300000, 74490743759495115000000),
   (5787382232696958200000, 80583471914212956000000),
   (5075028740082384400000, 86024361998060106000000),
   (4254503019591926400000, 90697446380596058000000),
   (3343280293227648300000, 94503114509545227000000),
   (2360723264687041000000, 97360214199961437000000),
   (1327287384125083000000, 99207621922882305000000),
   (216450216450216450000, 100000000000000000000000)]

/-- Gauss-Lobatto rule on the segment, number of points: 23 (`GeDiM/src/Quadrature/Quadrature_GaussLobatto1D.hpp:650-699`). -/
def lobatto1Tab43 : List (ℕ × ℕ) :=
  [(197628458498023700000, 0),
   (1212430038576585800000, 723642206063374040000),
   (2158793558512087100000, 2412102214464489900000),
   (3062623856477711100000, 5027072097982748800000),
   (3906772473778499800000, 8517445167435705500000),
   (4674862308175618800000, 12815247941396968000000),
   (5351955086216830800000, 17836817776993191000000),
   (5924875533137452500000, 23484411443157793000000),
   (6382473735087938700000, 29648103104276258000000),
   (6715843631930192000000, 36207922552710348000000),
   (6918496819290370600000, 43036189797966579000000),
   (6986489000637367800000, 50000000000000000000000),
   (6918496819290370600000, 56963810202033416000000),
   (6715843631930192000000, 63792077447289652000000),
   (6382473735087938700000, 70351896895723742000000),
   (5924875533137452500000, 76515588556842207000000),
   (5351955086216830800000, 82163182223006803000000),
   (4674862308175618800000, 87184752058603032000000),
   (3906772473778499800000, 91482554832564289000000),
   (3062623856477711100000, 94972927902017257000000),
   (2158793558512087100000, 97587897785535516000000),
   (1212430038576585800000, 99276357793936620000000),
   (197628458498023700000, 100000000000000000000000)]

end Verif
