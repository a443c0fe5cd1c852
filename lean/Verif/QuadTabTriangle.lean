import Mathlib.Data.Nat.Notation
import Mathlib.Data.Int.Notation

/-
Tables of the quadrature rules: Gauss rule on the triangle.

A decimal constant c of the source is stored as the integer c * 10^23; a row is (weight, x, y). The
rounding of the constants to doubles is left out.
-/
namespace Verif

/-- Gauss rule on the triangle, number of points: 1 (`GeDiM/src/Quadrature/Quadrature_Gauss2D_Triangle.cpp:26-31`, `:34-39`). The program repeats the table in every case. -/
def triTab1 : List (ℕ × ℕ × ℕ) :=
  [(50000000000000000000000, 33333333333333338180000, 33333333333333338180000)]

/-- Gauss rule on the triangle, number of points: 3 (`GeDiM/src/Quadrature/Quadrature_Gauss2D_Triangle.cpp:42-53`). -/
def triTab2 : List (ℕ × ℕ × ℕ) :=
  [(16666666666666665740000, 66666666666666662970000, 16666666666666665740000),
   (16666666666666665740000, 16666666666666665740000, 66666666666666662970000),
   (16666666666666665740000, 16666666666666665740000, 16666666666666665740000)]

/-- Gauss rule on the triangle, number of points: 4 (`GeDiM/src/Quadrature/Quadrature_Gauss2D_Triangle.cpp:56-70`). -/
def triTab3 : List (ℕ × ℕ × ℕ) :=
  [(15902069087198858480000, 15505102572168219520000, 17855872826361643410000),
   (9097930912801141523000, 64494897427831776590000, 7503111022260812446000),
   (15902069087198858480000, 15505102572168219520000, 66639024601470142620000),
   (9097930912801141523000, 64494897427831776590000, 28001991549907406800000)]

/-- Gauss rule on the triangle, number of points: 6 (`GeDiM/src/Quadrature/Quadrature_Gauss2D_Triangle.cpp:73-93`). -/
def triTab4 : List (ℕ × ℕ × ℕ) :=
  [(11169079483900573590000, 44594849091596489020000, 44594849091596489020000),
   (11169079483900573590000, 44594849091596489020000, 10810301816807023350000),
   (11169079483900573590000, 10810301816807023350000, 44594849091596489020000),
   (5497587182766093539000, 9157621350977074304000, 9157621350977074304000),
   (5497587182766093539000, 9157621350977074304000, 81684757298045851390000),
   (5497587182766093539000, 81684757298045851390000, 9157621350977074304000)]

/-- Gauss rule on the triangle, number of points: 7 (`GeDiM/src/Quadrature/Quadrature_Gauss2D_Triangle.cpp:96-119`). -/
def triTab5 : List (ℕ × ℕ × ℕ) :=
  [(11250000000000000280000, 33333333333333298180000, 33333333333333298180000),
   (6619707639425309598000, 47014206410511505400000, 47014206410511505400000),
   (6619707639425309598000, 47014206410511505400000, 5971587178976985044000),
   (6619707639425309598000, 5971587178976985044000, 47014206410511505400000),
   (6296959027241358364000, 10128650732345632900000, 10128650732345632900000),
   (6296959027241358364000, 10128650732345632900000, 79742698535308731420000),
   (6296959027241358364000, 79742698535308731420000, 10128650732345632900000)]

/-- Gauss rule on the triangle, number of points: 12 (`GeDiM/src/Quadrature/Quadrature_Gauss2D_Triangle.cpp:122-160`). -/
def triTab6 : List (ℕ × ℕ × ℕ) :=
  [(5839313786318968413000, 24928674517091042870000, 24928674517091042870000),
   (5839313786318968413000, 24928674517091042870000, 50142650965817914250000),
   (5839313786318968413000, 50142650965817914250000, 24928674517091042870000),
   (2542245318510340940000, 6308901449150222662000, 6308901449150222662000),
   (2542245318510340940000, 6308901449150222662000, 87382197101699554680000),
   (2542245318510340940000, 87382197101699554680000, 6308901449150222662000),
   (4142553780918678541000, 31035245103378439340000, 63650249912139866830000),
   (4142553780918678541000, 63650249912139866830000, 31035245103378439340000),
   (4142553780918678541000, 31035245103378439340000, 5314504984481694533000),
   (4142553780918678541000, 5314504984481694533000, 31035245103378439340000),
   (4142553780918678541000, 63650249912139866830000, 5314504984481694533000),
   (4142553780918678541000, 5314504984481694533000, 63650249912139866830000)]

/-- Gauss rule on the triangle, number of points: 12 (`GeDiM/src/Quadrature/Quadrature_Gauss2D_Triangle.cpp:163-201`). -/
def triTab7 : List (ℕ × ℕ × ℕ) :=
  [(2651702815743624958000, 6238226509440211731000, 6751786707391609077000),
   (2651702815743624958000, 87009986783168180580000, 6238226509440211731000),
   (2651702815743624958000, 6751786707391609077000, 87009986783168180580000),
   (4388140871444605462000, 5522545665692660949000, 32150249385198181870000),
   (4388140871444605462000, 62327204949109160650000, 5522545665692660949000),
   (4388140871444605462000, 32150249385198181870000, 62327204949109160650000),
   (2877504278498158388000, 3432430294509714735000, 66094919618673564350000),
   (2877504278498158388000, 30472650086816721600000, 3432430294509714735000),
   (2877504278498158388000, 66094919618673564350000, 30472650086816721600000),
   (6749318700980277974000, 51584233435359172490000, 27771616697639178730000),
   (6749318700980277974000, 20644149867001648780000, 51584233435359172490000),
   (6749318700980277974000, 27771616697639178730000, 20644149867001648780000)]

/-- Gauss rule on the triangle, number of points: 16 (`GeDiM/src/Quadrature/Quadrature_Gauss2D_Triangle.cpp:204-254`). -/
def triTab8 : List (ℕ × ℕ × ℕ) :=
  [(7215780383889358607000, 33333333333333298180000, 33333333333333298180000),
   (4754581713364230966000, 45929258829272318070000, 45929258829272318070000),
   (4754581713364230966000, 45929258829272318070000, 8141482341455369420000),
   (4754581713364230966000, 8141482341455369420000, 45929258829272318070000),
   (5160868526735912232000, 17056930775176021300000, 17056930775176021300000),
   (5160868526735912232000, 17056930775176021300000, 65886138449647957400000),
   (5160868526735912232000, 65886138449647957400000, 17056930775176021300000),
   (1622924881159903965000, 5054722831703097746000, 5054722831703097746000),
   (1622924881159903965000, 5054722831703097746000, 89890554336593808670000),
   (1622924881159903965000, 89890554336593808670000, 5054722831703097746000),
   (1361515708721749637000, 26311282963463811240000, 72849239295540424430000),
   (1361515708721749637000, 72849239295540424430000, 26311282963463811240000),
   (1361515708721749637000, 26311282963463811240000, 839477740995760515800),
   (1361515708721749637000, 839477740995760515800, 26311282963463811240000),
   (1361515708721749637000, 72849239295540424430000, 839477740995760515800),
   (1361515708721749637000, 839477740995760515800, 72849239295540424430000)]

/-- Gauss rule on the triangle, number of points: 19 (`GeDiM/src/Quadrature/Quadrature_Gauss2D_Triangle.cpp:257-316`). -/
def triTab9 : List (ℕ × ℕ × ℕ) :=
  [(4856789814139941819000, 33333333333333298180000, 33333333333333298180000),
   (1566735011356953575000, 48968251919873762020000, 48968251919873762020000),
   (1566735011356953575000, 48968251919873762020000, 2063496160252474565000),
   (1566735011356953575000, 2063496160252474565000, 48968251919873762020000),
   (1278883782934901563000, 4472951339445271207000, 4472951339445271207000),
   (1278883782934901563000, 4472951339445271207000, 91054097321109461750000),
   (1278883782934901563000, 91054097321109461750000, 4472951339445271207000),
   (3891377050238713914000, 43708959149293663550000, 43708959149293663550000),
   (3891377050238713914000, 43708959149293663550000, 12582081701412672900000),
   (3891377050238713914000, 12582081701412672900000, 43708959149293663550000),
   (3982386946360512436000, 18820353561903271910000, 18820353561903271910000),
   (3982386946360512436000, 18820353561903271910000, 62359292876193450630000),
   (3982386946360512436000, 62359292876193450630000, 18820353561903271910000),
   (2164176968864468809000, 22196298916076570570000, 74119859878449800840000),
   (2164176968864468809000, 74119859878449800840000, 22196298916076570570000),
   (2164176968864468809000, 22196298916076570570000, 3683841205473628588000),
   (2164176968864468809000, 3683841205473628588000, 22196298916076570570000),
   (2164176968864468809000, 74119859878449800840000, 3683841205473628588000),
   (2164176968864468809000, 3683841205473628588000, 74119859878449800840000)]

/-- Gauss rule on the triangle, number of points: 25 (`GeDiM/src/Quadrature/Quadrature_Gauss2D_Triangle.cpp:319-396`). -/
def triTab10 : List (ℕ × ℕ × ℕ) :=
  [(4540899519137679002000, 33333333333333298180000, 33333333333333298180000),
   (1836297887823335265000, 48557763338365739210000, 48557763338365739210000),
   (1836297887823335265000, 48557763338365739210000, 2884473323268524694000),
   (1836297887823335265000, 2884473323268524694000, 48557763338365739210000),
   (2266052971776396849000, 10948157548503704980000, 10948157548503704980000),
   (2266052971776396849000, 10948157548503704980000, 78103684902992587260000),
   (2266052971776396849000, 78103684902992587260000, 10948157548503704980000),
   (3637895842271005736000, 30793983876412095450000, 55035294182099914200000),
   (3637895842271005736000, 55035294182099914200000, 30793983876412095450000),
   (3637895842271005736000, 30793983876412095450000, 14170721941487995910000),
   (3637895842271005736000, 14170721941487995910000, 30793983876412095450000),
   (3637895842271005736000, 55035294182099914200000, 14170721941487995910000),
   (3637895842271005736000, 14170721941487995910000, 55035294182099914200000),
   (1416362126552874259000, 24667256063990269930000, 72832390459741092050000),
   (1416362126552874259000, 72832390459741092050000, 24667256063990269930000),
   (1416362126552874259000, 24667256063990269930000, 2500353476268638714000),
   (1416362126552874259000, 2500353476268638714000, 24667256063990269930000),
   (1416362126552874259000, 72832390459741092050000, 2500353476268638714000),
   (1416362126552874259000, 2500353476268638714000, 72832390459741092050000),
   (471083348186641156400, 6680325101220026263000, 92365593358750031070000),
   (471083348186641156400, 92365593358750031070000, 6680325101220026263000),
   (471083348186641156400, 6680325101220026263000, 954081540029945787700),
   (471083348186641156400, 954081540029945787700, 6680325101220026263000),
   (471083348186641156400, 92365593358750031070000, 954081540029945787700),
   (471083348186641156400, 954081540029945787700, 92365593358750031070000)]

/-- Gauss rule on the triangle, number of points: 30 (`GeDiM/src/Quadrature/Quadrature_Gauss2D_Triangle.cpp:399-491`). -/
def triTab11 : List (ℕ × ℕ × ℕ) :=
  [(3608902119860463859000, 39355079629947969930000, 39355079629947969930000),
   (3608902119860463859000, 39355079629947969930000, 21289840740104060130000),
   (3608902119860463859000, 21289840740104060130000, 39355079629947969930000),
   (2160771780768042105000, 47979065808897447540000, 47979065808897447540000),
   (2160771780768042105000, 47979065808897447540000, 4041868382205102833000),
   (2160771780768042105000, 4041868382205102833000, 47979065808897447540000),
   (311445242939279798600, 510034456458280643200, 5681715578857244459000),
   (311445242939279798600, 5681715578857244459000, 510034456458280643200),
   (311445242939279798600, 510034456458280643200, 93808249964684475850000),
   (311445242939279798600, 93808249964684475850000, 510034456458280643200),
   (311445242939279798600, 5681715578857244459000, 93808249964684475850000),
   (311445242939279798600, 93808249964684475850000, 5681715578857244459000),
   (2908685516108151098000, 26597620190330156790000, 12539956353662087830000),
   (2908685516108151098000, 12539956353662087830000, 26597620190330156790000),
   (2908685516108151098000, 26597620190330156790000, 60862423456007752610000),
   (2908685516108151098000, 60862423456007752610000, 26597620190330156790000),
   (2908685516108151098000, 12539956353662087830000, 60862423456007752610000),
   (2908685516108151098000, 60862423456007752610000, 12539956353662087830000),
   (848792416149170107800, 28536418538696461940000, 1240997015369853240000),
   (848792416149170107800, 1240997015369853240000, 28536418538696461940000),
   (848792416149170107800, 28536418538696461940000, 70222584445933688980000),
   (848792416149170107800, 70222584445933688980000, 28536418538696461940000),
   (848792416149170107800, 1240997015369853240000, 70222584445933688980000),
   (848792416149170107800, 70222584445933688980000, 1240997015369853240000),
   (1379573207822479622000, 13723536747817086100000, 5279205798821771239000),
   (1379573207822479622000, 5279205798821771239000, 13723536747817086100000),
   (1379573207822479622000, 13723536747817086100000, 80997257453361148900000),
   (1379573207822479622000, 80997257453361148900000, 13723536747817086100000),
   (1379573207822479622000, 5279205798821771239000, 80997257453361148900000),
   (1379573207822479622000, 80997257453361148900000, 5279205798821771239000)]

/-- Gauss rule on the triangle, number of points: 33 (`GeDiM/src/Quadrature/Quadrature_Gauss2D_Triangle.cpp:494-595`). -/
def triTab12 : List (ℕ × ℕ × ℕ) :=
  [(308313052577950880500, 2131735045321037081000, 2131735045321037081000),
   (308313052577950880500, 2131735045321037081000, 95736529909357925840000),
   (308313052577950880500, 95736529909357925840000, 2131735045321037081000),
   (3142911210894255153000, 27121038501211591760000, 27121038501211591760000),
   (3142911210894255153000, 27121038501211591760000, 45757922997576816470000),
   (3142911210894255153000, 45757922997576816470000, 27121038501211591760000),
   (1739805646535447226000, 12757614554158591690000, 12757614554158591690000),
   (1739805646535447226000, 12757614554158591690000, 74484770891682816620000),
   (1739805646535447226000, 74484770891682816620000, 12757614554158591690000),
   (2184627226901920266000, 43972439229446025340000, 43972439229446025340000),
   (2184627226901920266000, 43972439229446025340000, 12055121541107945150000),
   (2184627226901920266000, 12055121541107945150000, 43972439229446025340000),
   (1286553322022766788000, 48821738977380485510000, 48821738977380485510000),
   (1286553322022766788000, 48821738977380485510000, 2356522045239023422000),
   (1286553322022766788000, 2356522045239023422000, 48821738977380485510000),
   (1117838660115172238000, 28132558098993953880000, 69583608678780339840000),
   (1117838660115172238000, 69583608678780339840000, 28132558098993953880000),
   (1117838660115172238000, 28132558098993953880000, 2283833222225702814000),
   (1117838660115172238000, 2283833222225702814000, 28132558098993953880000),
   (1117838660115172238000, 69583608678780339840000, 2283833222225702814000),
   (1117838660115172238000, 2283833222225702814000, 69583608678780339840000),
   (865811555432944614200, 11625191590759714750000, 85801403354407268510000),
   (865811555432944614200, 85801403354407268510000, 11625191590759714750000),
   (865811555432944614200, 11625191590759714750000, 2573405054833022981000),
   (865811555432944614200, 2573405054833022981000, 11625191590759714750000),
   (865811555432944614200, 85801403354407268510000, 2573405054833022981000),
   (865811555432944614200, 2573405054833022981000, 85801403354407268510000),
   (2018577888319046318000, 27571326968551418400000, 60894323577978781700000),
   (2018577888319046318000, 60894323577978781700000, 27571326968551418400000),
   (2018577888319046318000, 27571326968551418400000, 11534349453469799900000),
   (2018577888319046318000, 11534349453469799900000, 27571326968551418400000),
   (2018577888319046318000, 60894323577978781700000, 11534349453469799900000),
   (2018577888319046318000, 11534349453469799900000, 60894323577978781700000)]

/-- Gauss rule on the triangle, number of points: 37 (`GeDiM/src/Quadrature/Quadrature_Gauss2D_Triangle.cpp:598-711`). -/
def triTab13 : List (ℕ × ℕ × ℕ) :=
  [(3398001829341582014000, 33333333333333298180000, 33333333333333298180000),
   (2780098376522666462000, 42694141425980042250000, 42694141425980042250000),
   (2780098376522666462000, 42694141425980042250000, 14611717148039918280000),
   (2780098376522666462000, 14611717148039918280000, 42694141425980042250000),
   (2913924255959999057000, 22137228629183289260000, 22137228629183289260000),
   (2913924255959999057000, 22137228629183289260000, 55725542741633415920000),
   (2913924255959999057000, 55725542741633415920000, 22137228629183289260000),
   (302616855176958583800, 2150968110884318371000, 2150968110884318371000),
   (302616855176958583800, 2150968110884318371000, 95698063778231368120000),
   (302616855176958583800, 95698063778231368120000, 2150968110884318371000),
   (1199720096444736525000, 48907694645253935170000, 48907694645253935170000),
   (1199720096444736525000, 48907694645253935170000, 2184610709492130001000),
   (1199720096444736525000, 2184610709492130001000, 48907694645253935170000),
   (1732063807042418663000, 30844176089211777780000, 62354599555367562490000),
   (1732063807042418663000, 62354599555367562490000, 30844176089211777780000),
   (1732063807042418663000, 30844176089211777780000, 6801224355420665280000),
   (1732063807042418663000, 6801224355420665280000, 30844176089211777780000),
   (1732063807042418663000, 62354599555367562490000, 6801224355420665280000),
   (1732063807042418663000, 6801224355420665280000, 62354599555367562490000),
   (748270055258283377200, 11092204280346339150000, 86470777029544276800000),
   (748270055258283377200, 86470777029544276800000, 11092204280346339150000),
   (748270055258283377200, 11092204280346339150000, 2437018690109383004000),
   (748270055258283377200, 2437018690109383004000, 11092204280346339150000),
   (748270055258283377200, 86470777029544276800000, 2437018690109383004000),
   (748270055258283377200, 2437018690109383004000, 86470777029544276800000),
   (1208951990579690966000, 16359740106785047860000, 74850711589995222450000),
   (1208951990579690966000, 74850711589995222450000, 16359740106785047860000),
   (1208951990579690966000, 16359740106785047860000, 8789548303219732461000),
   (1208951990579690966000, 8789548303219732461000, 16359740106785047860000),
   (1208951990579690966000, 74850711589995222450000, 8789548303219732461000),
   (1208951990579690966000, 8789548303219732461000, 74850711589995222450000),
   (479534050177163155600, 27251581777342964720000, 72235779312418801900000),
   (479534050177163155600, 72235779312418801900000, 27251581777342964720000),
   (479534050177163155600, 27251581777342964720000, 512638910238236850100),
   (479534050177163155600, 512638910238236850100, 27251581777342964720000),
   (479534050177163155600, 72235779312418801900000, 512638910238236850100),
   (479534050177163155600, 512638910238236850100, 72235779312418801900000)]

/-- Gauss rule on the triangle, number of points: 42 (`GeDiM/src/Quadrature/Quadrature_Gauss2D_Triangle.cpp:714-842`). -/
def triTab14 : List (ℕ × ℕ × ℕ) :=
  [(1094179068471444471000, 48896391036217862200000, 48896391036217862200000),
   (1094179068471444471000, 48896391036217862200000, 2207217927564272125000),
   (1094179068471444471000, 2207217927564272125000, 48896391036217862200000),
   (1639417677206267410000, 41764471934045394040000, 41764471934045394040000),
   (1639417677206267410000, 41764471934045394040000, 16471056131909214690000),
   (1639417677206267410000, 16471056131909214690000, 41764471934045394040000),
   (2588705225364579254000, 27347752830883864660000, 27347752830883864660000),
   (2588705225364579254000, 27347752830883864660000, 45304494338232270680000),
   (2588705225364579254000, 45304494338232270680000, 27347752830883864660000),
   (2108129436849650803000, 17720553241254344280000, 17720553241254344280000),
   (2108129436849650803000, 17720553241254344280000, 64558893517491311440000),
   (2108129436849650803000, 64558893517491311440000, 17720553241254344280000),
   (721684983488833382100, 6179988309087260101000, 6179988309087260101000),
   (721684983488833382100, 6179988309087260101000, 87640023381825482570000),
   (721684983488833382100, 87640023381825482570000, 6179988309087260101000),
   (246170180120004094100, 1939096124870104756000, 1939096124870104756000),
   (246170180120004094100, 1939096124870104756000, 96121807750259791180000),
   (246170180120004094100, 96121807750259791180000, 1939096124870104756000),
   (1233287660628183680000, 17226668782135556860000, 77060855477499645700000),
   (1233287660628183680000, 77060855477499645700000, 17226668782135556860000),
   (1233287660628183680000, 17226668782135556860000, 5712475740364793969000),
   (1233287660628183680000, 5712475740364793969000, 17226668782135556860000),
   (1233287660628183680000, 77060855477499645700000, 5712475740364793969000),
   (1233287660628183680000, 5712475740364793969000, 77060855477499645700000),
   (1928575539353034191000, 33686145979634501970000, 57022229084668318850000),
   (1928575539353034191000, 57022229084668318850000, 33686145979634501970000),
   (1928575539353034191000, 33686145979634501970000, 9291624935697181953000),
   (1928575539353034191000, 9291624935697181953000, 33686145979634501970000),
   (1928575539353034191000, 57022229084668318850000, 9291624935697181953000),
   (1928575539353034191000, 9291624935697181953000, 57022229084668318850000),
   (721815405676692022100, 29837288213625773330000, 68698016780808779380000),
   (721815405676692022100, 68698016780808779380000, 29837288213625773330000),
   (721815405676692022100, 29837288213625773330000, 1464695005565441049000),
   (721815405676692022100, 1464695005565441049000, 29837288213625773330000),
   (721815405676692022100, 68698016780808779380000, 1464695005565441049000),
   (721815405676692022100, 1464695005565441049000, 68698016780808779380000),
   (250511441925033596200, 11897449769695685180000, 87975717137017117600000),
   (250511441925033596200, 87975717137017117600000, 11897449769695685180000),
   (250511441925033596200, 11897449769695685180000, 126833093287202509200),
   (250511441925033596200, 126833093287202509200, 11897449769695685180000),
   (250511441925033596200, 87975717137017117600000, 126833093287202509200),
   (250511441925033596200, 126833093287202509200, 87975717137017117600000)]

/-- Gauss rule on the triangle, number of points: 49 (`GeDiM/src/Quadrature/Quadrature_Gauss2D_Triangle.cpp:845-994`). -/
def triTab15 : List (ℕ × ℕ × ℕ) :=
  [(2477738074303557914000, 33333333333333298180000, 33333333333333298180000),
   (924339430233077352600, 7903101365554163205000, 7903101365554163205000),
   (924339430233077352600, 7903101365554163205000, 84193797268891668040000),
   (924339430233077352600, 84193797268891668040000, 7903101365554163205000),
   (224857689621754024500, 1878950181077007620000, 1878950181077007620000),
   (224857689621754024500, 1878950181077007620000, 96242099637845979210000),
   (224857689621754024500, 96242099637845979210000, 1878950181077007620000),
   (670525819000641464700, 49250168823249668160000, 49250168823249668160000),
   (670525819000641464700, 49250168823249668160000, 1499662353500658997000),
   (670525819000641464700, 1499662353500658997000, 49250168823249668160000),
   (1901138172693057904000, 40886316907744107980000, 40886316907744107980000),
   (1901138172693057904000, 40886316907744107980000, 18227366184511786810000),
   (1901138172693057904000, 18227366184511786810000, 40886316907744107980000),
   (1460544538747188953000, 53877851064220139140000, 19412620368774630150000),
   (1460544538747188953000, 19412620368774630150000, 53877851064220139140000),
   (1460544538747188953000, 53877851064220139140000, 26709528567005225150000),
   (1460544538747188953000, 26709528567005225150000, 53877851064220139140000),
   (1460544538747188953000, 19412620368774630150000, 26709528567005225150000),
   (1460544538747188953000, 26709528567005225150000, 19412620368774630150000),
   (1508732257277313298000, 20250549804829998110000, 9876591135571211044000),
   (1508732257277313298000, 9876591135571211044000, 20250549804829998110000),
   (1508732257277313298000, 20250549804829998110000, 69872859059598790840000),
   (1508732257277313298000, 69872859059598790840000, 20250549804829998110000),
   (1508732257277313298000, 9876591135571211044000, 69872859059598790840000),
   (1508732257277313298000, 69872859059598790840000, 9876591135571211044000),
   (1563021378007880408000, 55349674918711644360000, 7766376706430816457000),
   (1563021378007880408000, 7766376706430816457000, 55349674918711644360000),
   (1563021378007880408000, 55349674918711644360000, 36883948374857539190000),
   (1563021378007880408000, 36883948374857539190000, 55349674918711644360000),
   (1563021378007880408000, 7766376706430816457000, 36883948374857539190000),
   (1563021378007880408000, 36883948374857539190000, 7766376706430816457000),
   (618080860857782039100, 78345022567320810050000, 2159462843398025911000),
   (618080860857782039100, 2159462843398025911000, 78345022567320810050000),
   (618080860857782039100, 78345022567320810050000, 19495514589281162650000),
   (618080860857782039100, 19495514589281162650000, 78345022567320810050000),
   (618080860857782039100, 2159462843398025911000, 19495514589281162650000),
   (618080860857782039100, 19495514589281162650000, 2159462843398025911000),
   (322093664525946628300, 89514624528794883850000, 1256359628778499701000),
   (322093664525946628300, 1256359628778499701000, 89514624528794883850000),
   (322093664525946628300, 89514624528794883850000, 9229015842426617489000),
   (322093664525946628300, 9229015842426617489000, 89514624528794883850000),
   (322093664525946628300, 1256359628778499701000, 9229015842426617489000),
   (322093664525946628300, 9229015842426617489000, 1256359628778499701000),
   (587473732425696990000, 32515745241110782790000, 1508265487092278444000),
   (587473732425696990000, 1508265487092278444000, 32515745241110782790000),
   (587473732425696990000, 32515745241110782790000, 65975989271796942060000),
   (587473732425696990000, 65975989271796942060000, 32515745241110782790000),
   (587473732425696990000, 1508265487092278444000, 65975989271796942060000),
   (587473732425696990000, 65975989271796942060000, 1508265487092278444000)]

/-- Gauss rule on the triangle, number of points: 55 (`GeDiM/src/Quadrature/Quadrature_Gauss2D_Triangle.cpp:997-1164`). -/
def triTab16 : List (ℕ × ℕ × ℕ) :=
  [(2266808250591008725000, 33333333333333298180000, 33333333333333298180000),
   (840430607148185890300, 8540253940793320064000, 8540253940793320064000),
   (840430607148185890300, 8540253940793320064000, 82919492118413362650000),
   (840430607148185890300, 82919492118413362650000, 8540253940793320064000),
   (108509496340497470900, 1242557200144409242000, 1242557200144409242000),
   (108509496340497470900, 1242557200144409242000, 97514885599711176310000),
   (108509496340497470900, 97514885599711176310000, 1242557200144409242000),
   (722527733754236428700, 49174838341891591310000, 49174838341891591310000),
   (722527733754236428700, 49174838341891591310000, 1650323316216811831000),
   (722527733754236428700, 1650323316216811831000, 49174838341891591310000),
   (1299771522733836684000, 45669426695387466130000, 45669426695387466130000),
   (1299771522733836684000, 45669426695387466130000, 8661146609225071902000),
   (1299771522733836684000, 8661146609225071902000, 45669426695387466130000),
   (2005446661667771580000, 48506759880447436470000, 32315912848634387180000),
   (2005446661667771580000, 32315912848634387180000, 48506759880447436470000),
   (2005446661667771580000, 48506759880447436470000, 19177327270918176350000),
   (2005446661667771580000, 19177327270918176350000, 48506759880447436470000),
   (2005446661667771580000, 32315912848634387180000, 19177327270918176350000),
   (2005446661667771580000, 19177327270918176350000, 32315912848634387180000),
   (972998416004170092700, 20622099278664204890000, 15341553679414687840000),
   (972998416004170092700, 15341553679414687840000, 20622099278664204890000),
   (972998416004170092700, 20622099278664204890000, 64036347041921104490000),
   (972998416004170092700, 64036347041921104490000, 20622099278664204890000),
   (972998416004170092700, 15341553679414687840000, 64036347041921104490000),
   (972998416004170092700, 64036347041921104490000, 15341553679414687840000),
   (1165197443829810338000, 32374950270039093430000, 7429547899133068234000),
   (1165197443829810338000, 7429547899133068234000, 32374950270039093430000),
   (1165197443829810338000, 32374950270039093430000, 60195501830827835570000),
   (1165197443829810338000, 60195501830827835570000, 32374950270039093430000),
   (1165197443829810338000, 7429547899133068234000, 60195501830827835570000),
   (1165197443829810338000, 60195501830827835570000, 7429547899133068234000),
   (912911855504844500800, 73834330556606586620000, 7127876283214786002000),
   (912911855504844500800, 7127876283214786002000, 73834330556606586620000),
   (912911855504844500800, 73834330556606586620000, 19037793160178628770000),
   (912911855504844500800, 19037793160178628770000, 73834330556606586620000),
   (912911855504844500800, 7127876283214786002000, 19037793160178628770000),
   (912911855504844500800, 19037793160178628770000, 7127876283214786002000),
   (355686140409471485800, 91210673061680791470000, 1662322322370579294000),
   (355686140409471485800, 1662322322370579294000, 91210673061680791470000),
   (355686140409471485800, 91210673061680791470000, 7127004615948627497000),
   (355686140409471485800, 7127004615948627497000, 91210673061680791470000),
   (355686140409471485800, 1662322322370579294000, 7127004615948627497000),
   (355686140409471485800, 7127004615948627497000, 1662322322370579294000),
   (583558616862343230300, 66129919222598720910000, 1416077253379479164000),
   (583558616862343230300, 1416077253379479164000, 66129919222598720910000),
   (583558616862343230300, 66129919222598720910000, 32454003524021801660000),
   (583558616862343230300, 32454003524021801660000, 66129919222598720910000),
   (583558616862343230300, 1416077253379479164000, 32454003524021801660000),
   (583558616862343230300, 32454003524021801660000, 1416077253379479164000),
   (474113143968042313700, 17807138906021477420000, 1453969495894185532000),
   (474113143968042313700, 1453969495894185532000, 17807138906021477420000),
   (474113143968042313700, 17807138906021477420000, 80738891598084339130000),
   (474113143968042313700, 80738891598084339130000, 17807138906021477420000),
   (474113143968042313700, 1453969495894185532000, 80738891598084339130000),
   (474113143968042313700, 80738891598084339130000, 1453969495894185532000)]

/-- Gauss rule on the triangle, number of points: 63 (`GeDiM/src/Quadrature/Quadrature_Gauss2D_Triangle.cpp:1167-1358`). -/
def triTab17 : List (ℕ × ℕ × ℕ) :=
  [(1746460379257200324000, 28796825754667360050000, 28796825754667360050000),
   (1746460379257200324000, 28796825754667360050000, 42406348490665274340000),
   (1746460379257200324000, 42406348490665274340000, 28796825754667360050000),
   (594290035558017217000, 49216175986208465790000, 49216175986208465790000),
   (594290035558017217000, 49216175986208465790000, 1567648027583069467000),
   (594290035558017217000, 1567648027583069467000, 49216175986208465790000),
   (1249075334516957896000, 46252866763171174290000, 46252866763171174290000),
   (1249075334516957896000, 46252866763171174290000, 7494266473657652805000),
   (1249075334516957896000, 7494266473657652805000, 46252866763171174290000),
   (1538698718887560740000, 16730292951631792200000, 34429160695501714870000),
   (1538698718887560740000, 34429160695501714870000, 16730292951631792200000),
   (1538698718887560740000, 16730292951631792200000, 48840546352866492930000),
   (1538698718887560740000, 48840546352866492930000, 16730292951631792200000),
   (1538698718887560740000, 34429160695501714870000, 48840546352866492930000),
   (1538698718887560740000, 48840546352866492930000, 34429160695501714870000),
   (1118580731191770594000, 15816335500814651670000, 22541623431550639190000),
   (1118580731191770594000, 22541623431550639190000, 15816335500814651670000),
   (1118580731191770594000, 15816335500814651670000, 61642041067634711910000),
   (1118580731191770594000, 61642041067634711910000, 15816335500814651670000),
   (1118580731191770594000, 22541623431550639190000, 61642041067634711910000),
   (1118580731191770594000, 61642041067634711910000, 22541623431550639190000),
   (1030184574067020617000, 16352252138387565750000, 8067008315353181580000),
   (1030184574067020617000, 8067008315353181580000, 16352252138387565750000),
   (1030184574067020617000, 16352252138387565750000, 75580739546259256830000),
   (1030184574067020617000, 75580739546259256830000, 16352252138387565750000),
   (1030184574067020617000, 8067008315353181580000, 75580739546259256830000),
   (1030184574067020617000, 75580739546259256830000, 8067008315353181580000),
   (1176778307297705016000, 62447680488959766980000, 6596745137505093115000),
   (1176778307297705016000, 6596745137505093115000, 62447680488959766980000),
   (1176778307297705016000, 62447680488959766980000, 30955574373535138520000),
   (1176778307297705016000, 30955574373535138520000, 62447680488959766980000),
   (1176778307297705016000, 6596745137505093115000, 30955574373535138520000),
   (1176778307297705016000, 30955574373535138520000, 6596745137505093115000),
   (380453128494312106700, 87317249935244456440000, 4567787989099676010000),
   (380453128494312106700, 4567787989099676010000, 87317249935244456440000),
   (380453128494312106700, 87317249935244456440000, 8114962075655869633000),
   (380453128494312106700, 8114962075655869633000, 87317249935244456440000),
   (380453128494312106700, 4567787989099676010000, 8114962075655869633000),
   (380453128494312106700, 8114962075655869633000, 4567787989099676010000),
   (451393021788763521700, 34428164322282694960000, 1152841172315421589000),
   (451393021788763521700, 1152841172315421589000, 34428164322282694960000),
   (451393021788763521700, 34428164322282694960000, 64418994505401883100000),
   (451393021788763521700, 64418994505401883100000, 34428164322282694960000),
   (451393021788763521700, 1152841172315421589000, 64418994505401883100000),
   (451393021788763521700, 64418994505401883100000, 1152841172315421589000),
   (221788125175805851700, 9158448446781367047000, 930577143239006039600),
   (221788125175805851700, 930577143239006039600, 9158448446781367047000),
   (221788125175805851700, 9158448446781367047000, 89910974409979627090000),
   (221788125175805851700, 89910974409979627090000, 9158448446781367047000),
   (221788125175805851700, 930577143239006039600, 89910974409979627090000),
   (221788125175805851700, 89910974409979627090000, 930577143239006039600),
   (522162715374836685500, 20172088013378988710000, 1591681410761981372000),
   (522162715374836685500, 1591681410761981372000, 20172088013378988710000),
   (522162715374836685500, 20172088013378988710000, 78236230575859033730000),
   (522162715374836685500, 78236230575859033730000, 20172088013378988710000),
   (522162715374836685500, 1591681410761981372000, 78236230575859033730000),
   (522162715374836685500, 78236230575859033730000, 1591681410761981372000),
   (98381136389470258230, 96538762758254648140000, 1073473316376403336000),
   (98381136389470258230, 1073473316376403336000, 96538762758254648140000),
   (98381136389470258230, 96538762758254648140000, 2387763925368953377000),
   (98381136389470258230, 2387763925368953377000, 96538762758254648140000),
   (98381136389470258230, 1073473316376403336000, 2387763925368953377000),
   (98381136389470258230, 2387763925368953377000, 1073473316376403336000)]

/-- Gauss rule on the triangle, number of points: 73 (`GeDiM/src/Quadrature/Quadrature_Gauss2D_Triangle.cpp:1361-1582`, `:1585-1806`). The program repeats the table in every case. -/
def triTab19 : List (ℕ × ℕ × ℕ) :=
  [(1645316569445949909000, 33333333333333331480000, 33333333333333331480000),
   (516536594563599994700, 2078002585398699975000, 48960998707300601440000),
   (516536594563599994700, 48960998707300601440000, 2078002585398699975000),
   (516536594563599994700, 48960998707300601440000, 48960998707300601440000),
   (1119362363150800017000, 9092621460421500268000, 45453689269789299130000),
   (1119362363150800017000, 45453689269789299130000, 9092621460421500268000),
   (1119362363150800017000, 45453689269789299130000, 45453689269789299130000),
   (1513306293473399948000, 19716663870113798620000, 40141668064943097920000),
   (1513306293473399948000, 40141668064943097920000, 19716663870113798620000),
   (1513306293473399948000, 40141668064943097920000, 40141668064943097920000),
   (1524548390109899988000, 48889669119380502190000, 25555165440309801640000),
   (1524548390109899988000, 25555165440309801640000, 48889669119380502190000),
   (1524548390109899988000, 25555165440309801640000, 25555165440309801640000),
   (1207960637082050072000, 64584411569574096120000, 17707794215212999120000),
   (1207960637082050072000, 17707794215212999120000, 64584411569574096120000),
   (1207960637082050072000, 17707794215212999120000, 17707794215212999120000),
   (802540179340049952800, 77987789354409597920000, 11006105322795199650000),
   (802540179340049952800, 11006105322795199650000, 77987789354409597920000),
   (802540179340049952800, 11006105322795199650000, 11006105322795199650000),
   (404229013089199996200, 88894275149632095980000, 5552862425183999889000),
   (404229013089199996200, 5552862425183999889000, 88894275149632095980000),
   (404229013089199996200, 5552862425183999889000, 5552862425183999889000),
   (103968101374249995800, 97475627244554297060000, 1262186377722900044000),
   (103968101374249995800, 1262186377722900044000, 97475627244554297060000),
   (103968101374249995800, 1262186377722900044000, 1262186377722900044000),
   (194243845249050003800, 361141784841199995500, 39575478735694302750000),
   (194243845249050003800, 361141784841199995500, 60063379479464495960000),
   (194243845249050003800, 39575478735694302750000, 361141784841199995500),
   (194243845249050003800, 39575478735694302750000, 60063379479464495960000),
   (194243845249050003800, 60063379479464495960000, 361141784841199995500),
   (194243845249050003800, 60063379479464495960000, 39575478735694302750000),
   (1278708030601100054000, 13446675453077999720000, 30792998388043602010000),
   (1278708030601100054000, 13446675453077999720000, 55760326158878403820000),
   (1278708030601100054000, 30792998388043602010000, 13446675453077999720000),
   (1278708030601100054000, 30792998388043602010000, 55760326158878403820000),
   (1278708030601100054000, 55760326158878403820000, 13446675453077999720000),
   (1278708030601100054000, 55760326158878403820000, 30792998388043602010000),
   (444045178666899968000, 1444602577611499988000, 26456694840652000830000),
   (444045178666899968000, 1444602577611499988000, 72098702581736495710000),
   (444045178666899968000, 26456694840652000830000, 1444602577611499988000),
   (444045178666899968000, 26456694840652000830000, 72098702581736495710000),
   (444045178666899968000, 72098702581736495710000, 1444602577611499988000),
   (444045178666899968000, 72098702581736495710000, 26456694840652000830000),
   (806227338086550060500, 4693357883817800280000, 35853935220595101190000),
   (806227338086550060500, 4693357883817800280000, 59452706895587104090000),
   (806227338086550060500, 35853935220595101190000, 4693357883817800280000),
   (806227338086550060500, 35853935220595101190000, 59452706895587104090000),
   (806227338086550060500, 59452706895587104090000, 4693357883817800280000),
   (806227338086550060500, 59452706895587104090000, 35853935220595101190000),
   (124597090874549996400, 286112035056699989100, 15780740596859499370000),
   (124597090874549996400, 286112035056699989100, 83933147368083904640000),
   (124597090874549996400, 15780740596859499370000, 286112035056699989100),
   (124597090874549996400, 15780740596859499370000, 83933147368083904640000),
   (124597090874549996400, 83933147368083904640000, 286112035056699989100),
   (124597090874549996400, 83933147368083904640000, 15780740596859499370000),
   (912142005947550078800, 22386142409791601190000, 7505059697591100198000),
   (912142005947550078800, 22386142409791601190000, 70108797892617302770000),
   (912142005947550078800, 7505059697591100198000, 22386142409791601190000),
   (912142005947550078800, 7505059697591100198000, 70108797892617302770000),
   (912142005947550078800, 70108797892617302770000, 22386142409791601190000),
   (912142005947550078800, 70108797892617302770000, 7505059697591100198000),
   (512928186809949969400, 3464707481675999984000, 14242160111338300620000),
   (512928186809949969400, 3464707481675999984000, 82293132406985702860000),
   (512928186809949969400, 14242160111338300620000, 3464707481675999984000),
   (512928186809949969400, 14242160111338300620000, 82293132406985702860000),
   (512928186809949969400, 82293132406985702860000, 3464707481675999984000),
   (512928186809949969400, 82293132406985702860000, 14242160111338300620000),
   (189996442765099997900, 1016111929627800010000, 6549462808293800287000),
   (189996442765099997900, 1016111929627800010000, 92434425262078401260000),
   (189996442765099997900, 6549462808293800287000, 1016111929627800010000),
   (189996442765099997900, 6549462808293800287000, 92434425262078401260000),
   (189996442765099997900, 92434425262078401260000, 1016111929627800010000),
   (189996442765099997900, 92434425262078401260000, 6549462808293800287000)]

/-- Gauss rule on the triangle, number of points: 85 (`GeDiM/src/Quadrature/Quadrature_Gauss2D_Triangle.cpp:1809-2066`, `:2069-2326`). The program repeats the table in every case. -/
def triTab21 : List (ℕ × ℕ × ℕ) :=
  [(1380521349884976032000, 33333333333332998420000, 33333333333332998420000),
   (88951477366337001680, 150064932442999995900, 49924967533779002200000),
   (88951477366337001680, 49924967533779002200000, 150064932442999995900),
   (88951477366337001680, 49924967533779002200000, 49924967533779002200000),
   (1005619905698058522000, 9413975193894999483000, 45293012403052002050000),
   (1005619905698058522000, 45293012403052002050000, 9413975193894999483000),
   (1005619905698058522000, 45293012403052002050000, 45293012403052002050000),
   (1340892362966578447000, 20447212408952999960000, 39776393795524001010000),
   (1340892362966578447000, 39776393795524001010000, 20447212408952999960000),
   (1340892362966578447000, 39776393795524001010000, 39776393795524001010000),
   (1226156690075100482000, 47099959493442999920000, 26450020253278999640000),
   (1226156690075100482000, 26450020253278999640000, 47099959493442999920000),
   (1226156690075100482000, 26450020253278999640000, 26450020253278999640000),
   (819728920534769540900, 57796207181585002030000, 21101896409208001360000),
   (819728920534769540900, 21101896409208001360000, 57796207181585002030000),
   (819728920534769540900, 21101896409208001360000, 21101896409208001360000),
   (739795369932479997300, 78452878565745998160000, 10773560717126999530000),
   (739795369932479997300, 10773560717126999530000, 78452878565745998160000),
   (739795369932479997300, 10773560717126999530000, 10773560717126999530000),
   (228964113885212535600, 92186182432439001120000, 3906908783779999839000),
   (228964113885212535600, 3906908783779999839000, 92186182432439001120000),
   (228964113885212535600, 3906908783779999839000, 3906908783779999839000),
   (82591325778810851900, 97765124054134000530000, 1117437972933000082000),
   (82591325778810851900, 1117437972933000082000, 97765124054134000530000),
   (82591325778810851900, 1117437972933000082000, 1117437972933000082000),
   (117458545428779197200, 534961818733999984500, 6354966590834999762000),
   (117458545428779197200, 534961818733999984500, 93110071590430998350000),
   (117458545428779197200, 6354966590834999762000, 534961818733999984500),
   (117458545428779197200, 6354966590834999762000, 93110071590430998350000),
   (117458545428779197200, 93110071590430998350000, 534961818733999984500),
   (117458545428779197200, 93110071590430998350000, 6354966590834999762000),
   (223296287709089666700, 795481706619999978700, 15710691894070999420000),
   (223296287709089666700, 795481706619999978700, 83493826399309001300000),
   (223296287709089666700, 15710691894070999420000, 795481706619999978700),
   (223296287709089666700, 15710691894070999420000, 83493826399309001300000),
   (223296287709089666700, 83493826399309001300000, 795481706619999978700),
   (223296287709089666700, 83493826399309001300000, 15710691894070999420000),
   (304978340395398606800, 1042239828126000079000, 39564211436437002330000),
   (304978340395398606800, 1042239828126000079000, 59393548735435997000000),
   (304978340395398606800, 39564211436437002330000, 1042239828126000079000),
   (304978340395398606800, 39564211436437002330000, 59393548735435997000000),
   (304978340395398606800, 59393548735435997000000, 1042239828126000079000),
   (304978340395398606800, 59393548735435997000000, 39564211436437002330000),
   (344554066359410151800, 1096441479612000024000, 27316757071290997950000),
   (344554066359410151800, 1096441479612000024000, 71586801449097003940000),
   (344554066359410151800, 27316757071290997950000, 1096441479612000024000),
   (344554066359410151800, 27316757071290997950000, 71586801449097003940000),
   (344554066359410151800, 71586801449097003940000, 1096441479612000024000),
   (344554066359410151800, 71586801449097003940000, 27316757071290997950000),
   (399873753623908138900, 3856671208546000318000, 10178538248502000400000),
   (399873753623908138900, 3856671208546000318000, 85964790542951996510000),
   (399873753623908138900, 10178538248502000400000, 3856671208546000318000),
   (399873753623908138900, 10178538248502000400000, 85964790542951996510000),
   (399873753623908138900, 85964790542951996510000, 3856671208546000318000),
   (399873753623908138900, 85964790542951996510000, 10178538248502000400000),
   (369306714266801191700, 3558050781721999734000, 44665854917641001350000),
   (369306714266801191700, 3558050781721999734000, 51776094300636998910000),
   (369306714266801191700, 44665854917641001350000, 3558050781721999734000),
   (369306714266801191700, 44665854917641001350000, 51776094300636998910000),
   (369306714266801191700, 51776094300636998910000, 3558050781721999734000),
   (369306714266801191700, 51776094300636998910000, 44665854917641001350000),
   (639966593932413032500, 4967081636276000217000, 19901079414949998660000),
   (639966593932413032500, 4967081636276000217000, 75131838948772999840000),
   (639966593932413032500, 19901079414949998660000, 4967081636276000217000),
   (639966593932413032500, 19901079414949998660000, 75131838948772999840000),
   (639966593932413032500, 75131838948772999840000, 4967081636276000217000),
   (639966593932413032500, 75131838948772999840000, 19901079414949998660000),
   (862903558784827544300, 5851972508433000292000, 32426118369228001950000),
   (862903558784827544300, 5851972508433000292000, 61721909122339002620000),
   (862903558784827544300, 32426118369228001950000, 5851972508433000292000),
   (862903558784827544300, 32426118369228001950000, 61721909122339002620000),
   (862903558784827544300, 61721909122339002620000, 5851972508433000292000),
   (862903558784827544300, 61721909122339002620000, 32426118369228001950000),
   (933647295146773463500, 12149778700438999820000, 20853136321012999410000),
   (933647295146773463500, 12149778700438999820000, 66997084978546994630000),
   (933647295146773463500, 20853136321012999410000, 12149778700438999820000),
   (933647295146773463500, 20853136321012999410000, 66997084978546994630000),
   (933647295146773463500, 66997084978546994630000, 12149778700438999820000),
   (933647295146773463500, 66997084978546994630000, 20853136321012999410000),
   (1140911202919762946000, 14071084494394001110000, 32317056653625997330000),
   (1140911202919762946000, 14071084494394001110000, 53611858851979998790000),
   (1140911202919762946000, 32317056653625997330000, 14071084494394001110000),
   (1140911202919762946000, 32317056653625997330000, 53611858851979998790000),
   (1140911202919762946000, 53611858851979998790000, 14071084494394001110000),
   (1140911202919762946000, 53611858851979998790000, 32317056653625997330000)]

/-- Gauss rule on the triangle, number of points: 126 (`GeDiM/src/Quadrature/Quadrature_Gauss2D_Triangle.cpp:2329-2709`, `:2712-3092`, `:3095-3475`, `:3478-3858`). The program repeats the table in every case. -/
def triTab25 : List (ℕ × ℕ × ℕ) :=
  [(400279094001020855500, 2794648307316999897000, 48602675846340998020000),
   (400279094001020855500, 48602675846340998020000, 2794648307316999897000),
   (400279094001020855500, 48602675846340998020000, 48602675846340998020000),
   (797353841619525063900, 13117860132764999630000, 43441069933616999200000),
   (797353841619525063900, 43441069933616999200000, 13117860132764999630000),
   (797353841619525063900, 43441069933616999200000, 43441069933616999200000),
   (655457061539776487900, 22022172951207000250000, 38988913524396001660000),
   (655457061539776487900, 38988913524396001660000, 22022172951207000250000),
   (655457061539776487900, 38988913524396001660000, 38988913524396001660000),
   (979150048281780989400, 40311353196039001470000, 29844323401979999670000),
   (979150048281780989400, 29844323401979999670000, 40311353196039001470000),
   (979150048281780989400, 29844323401979999670000, 29844323401979999670000),
   (823544272076863481700, 53191165532525996880000, 23404417233736998780000),
   (823544272076863481700, 23404417233736998780000, 53191165532525996880000),
   (823544272076863481700, 23404417233736998780000, 23404417233736998780000),
   (427363953704605007600, 69706333078196003330000, 15146833460902001110000),
   (427363953704605007600, 15146833460902001110000, 69706333078196003330000),
   (427363953704605007600, 15146833460902001110000, 15146833460902001110000),
   (408094292861324592400, 77453221290800999820000, 11273389354599000490000),
   (408094292861324592400, 11273389354599000490000, 77453221290800999820000),
   (408094292861324592400, 11273389354599000490000, 11273389354599000490000),
   (306057326999188954900, 84456861581694997470000, 7771569209152999480000),
   (306057326999188954900, 7771569209152999480000, 84456861581694997470000),
   (306057326999188954900, 7771569209152999480000, 7771569209152999480000),
   (145424913246833243400, 93021381277141002020000, 3489309361429999978000),
   (145424913246833243400, 3489309361429999978000, 93021381277141002020000),
   (145424913246833243400, 3489309361429999978000, 3489309361429999978000),
   (34613762283099814380, 98548363075812994700000, 725818462093000011500),
   (34613762283099814380, 725818462093000011500, 98548363075812994700000),
   (34613762283099814380, 725818462093000011500, 725818462093000011500),
   (62414459963869848340, 129235270443999990600, 22721445215336000260000),
   (62414459963869848340, 129235270443999990600, 77149319514218994700000),
   (62414459963869848340, 22721445215336000260000, 129235270443999990600),
   (62414459963869848340, 22721445215336000260000, 77149319514218994700000),
   (62414459963869848340, 77149319514218994700000, 129235270443999990600),
   (62414459963869848340, 77149319514218994700000, 22721445215336000260000),
   (170237645440151101300, 539970127211999995100, 43501055485356998620000),
   (170237645440151101300, 539970127211999995100, 55958974387431004160000),
   (170237645440151101300, 43501055485356998620000, 539970127211999995100),
   (170237645440151101300, 43501055485356998620000, 55958974387431004160000),
   (170237645440151101300, 55958974387431004160000, 539970127211999995100),
   (170237645440151101300, 55958974387431004160000, 43501055485356998620000),
   (167982716303202543600, 638400303398000031100, 32030959927219998520000),
   (167982716303202543600, 638400303398000031100, 67330639769381994690000),
   (167982716303202543600, 32030959927219998520000, 638400303398000031100),
   (167982716303202543600, 32030959927219998520000, 67330639769381994690000),
   (167982716303202543600, 67330639769381994690000, 638400303398000031100),
   (167982716303202543600, 67330639769381994690000, 32030959927219998520000),
   (85807826974837702990, 502821150199000022800, 9175032228000999657000),
   (85807826974837702990, 502821150199000022800, 90322146621800003530000),
   (85807826974837702990, 9175032228000999657000, 502821150199000022800),
   (85807826974837702990, 9175032228000999657000, 90322146621800003530000),
   (85807826974837702990, 90322146621800003530000, 502821150199000022800),
   (85807826974837702990, 90322146621800003530000, 9175032228000999657000),
   (74042815835780300540, 682675862178000036200, 3801083585871999765000),
   (74042815835780300540, 682675862178000036200, 95516240551949005420000),
   (74042815835780300540, 3801083585871999765000, 682675862178000036200),
   (74042815835780300540, 3801083585871999765000, 95516240551949005420000),
   (74042815835780300540, 95516240551949005420000, 682675862178000036200),
   (74042815835780300540, 95516240551949005420000, 3801083585871999765000),
   (175565630536434250600, 1001619963992999955000, 15742521848530999230000),
   (175565630536434250600, 1001619963992999955000, 83255858187475995090000),
   (175565630536434250600, 15742521848530999230000, 1001619963992999955000),
   (175565630536434250600, 15742521848530999230000, 83255858187475995090000),
   (175565630536434250600, 83255858187475995090000, 1001619963992999955000),
   (175565630536434250600, 83255858187475995090000, 15742521848530999230000),
   (369677507485324189500, 2575781317339000120000, 23988965977852999560000),
   (369677507485324189500, 2575781317339000120000, 73435252704807996160000),
   (369677507485324189500, 23988965977852999560000, 2575781317339000120000),
   (369677507485324189500, 23988965977852999560000, 73435252704807996160000),
   (369677507485324189500, 73435252704807996160000, 2575781317339000120000),
   (369677507485324189500, 73435252704807996160000, 23988965977852999560000),
   (399154373868827912200, 3022789811992000059000, 36194311812606000390000),
   (399154373868827912200, 3022789811992000059000, 60782898375401994700000),
   (399154373868827912200, 36194311812606000390000, 3022789811992000059000),
   (399154373868827912200, 36194311812606000390000, 60782898375401994700000),
   (399154373868827912200, 60782898375401994700000, 3022789811992000059000),
   (399154373868827912200, 60782898375401994700000, 36194311812606000390000),
   (217798130657902069100, 3050499010715999881000, 8355196095483000129000),
   (217798130657902069100, 3050499010715999881000, 88594304893801001380000),
   (217798130657902069100, 8355196095483000129000, 3050499010715999881000),
   (217798130657902069100, 8355196095483000129000, 88594304893801001380000),
   (217798130657902069100, 88594304893801001380000, 3050499010715999881000),
   (217798130657902069100, 88594304893801001380000, 8355196095483000129000),
   (368252835070891591800, 4595654736257000217000, 14844322073242000040000),
   (368252835070891591800, 4595654736257000217000, 80560023190500995580000),
   (368252835070891591800, 14844322073242000040000, 4595654736257000217000),
   (368252835070891591800, 14844322073242000040000, 80560023190500995580000),
   (368252835070891591800, 80560023190500995580000, 4595654736257000217000),
   (368252835070891591800, 80560023190500995580000, 14844322073242000040000),
   (548178642320977516100, 6744280054027999849000, 28373970872753001560000),
   (548178642320977516100, 6744280054027999849000, 64881749073218997200000),
   (548178642320977516100, 28373970872753001560000, 6744280054027999849000),
   (548178642320977516100, 28373970872753001560000, 64881749073218997200000),
   (548178642320977516100, 64881749073218997200000, 6744280054027999849000),
   (548178642320977516100, 64881749073218997200000, 28373970872753001560000),
   (587498087177056038700, 7004509141591000465000, 40689937511878998540000),
   (587498087177056038700, 7004509141591000465000, 52305553346529998220000),
   (587498087177056038700, 40689937511878998540000, 7004509141591000465000),
   (587498087177056038700, 40689937511878998540000, 52305553346529998220000),
   (587498087177056038700, 52305553346529998220000, 7004509141591000465000),
   (587498087177056038700, 52305553346529998220000, 40689937511878998540000),
   (500780035689928505100, 8391152464011999990000, 19411398702488999460000),
   (500780035689928505100, 8391152464011999990000, 72197448833499000550000),
   (500780035689928505100, 19411398702488999460000, 8391152464011999990000),
   (500780035689928505100, 19411398702488999460000, 72197448833499000550000),
   (500780035689928505100, 72197448833499000550000, 8391152464011999990000),
   (500780035689928505100, 72197448833499000550000, 19411398702488999460000),
   (665482039381434017200, 12037553567714999460000, 32413434700069998500000),
   (665482039381434017200, 12037553567714999460000, 55549011732214004230000),
   (665482039381434017200, 32413434700069998500000, 12037553567714999460000),
   (665482039381434017200, 32413434700069998500000, 55549011732214004230000),
   (665482039381434017200, 55549011732214004230000, 12037553567714999460000),
   (665482039381434017200, 55549011732214004230000, 32413434700069998500000),
   (707722325261306989300, 14806689915737000770000, 22927748355597998840000),
   (707722325261306989300, 14806689915737000770000, 62265561728664997610000),
   (707722325261306989300, 22927748355597998840000, 14806689915737000770000),
   (707722325261306989300, 22927748355597998840000, 62265561728664997610000),
   (707722325261306989300, 62265561728664997610000, 14806689915737000770000),
   (707722325261306989300, 62265561728664997610000, 22927748355597998840000),
   (744068978058400488200, 19177186586732999920000, 32561812259597999740000),
   (744068978058400488200, 19177186586732999920000, 48261001153668997570000),
   (744068978058400488200, 32561812259597999740000, 19177186586732999920000),
   (744068978058400488200, 32561812259597999740000, 48261001153668997570000),
   (744068978058400488200, 48261001153668997570000, 19177186586732999920000),
   (744068978058400488200, 48261001153668997570000, 32561812259597999740000)]

/-- Gauss rule on the triangle, number of points: 175 (`GeDiM/src/Quadrature/Quadrature_Gauss2D_Triangle.cpp:3861-4388`, `:4391-4918`, `:4921-5448`, `:5451-5978`, `:5981-6508`). The program repeats the table in every case. -/
def triTab30 : List (ℕ × ℕ × ℕ) :=
  [(778998010144959975700, 33333333333332998420000, 33333333333332998420000),
   (158861685026706698400, 733011643276999976000, 49633494178361997620000),
   (158861685026706698400, 49633494178361997620000, 733011643276999976000),
   (158861685026706698400, 49633494178361997620000, 49633494178361997620000),
   (524171331786538533000, 8299567580295999503000, 45850216209852001640000),
   (524171331786538533000, 45850216209852001640000, 8299567580295999503000),
   (524171331786538533000, 45850216209852001640000, 45850216209852001640000),
   (660472978887181524900, 15098095612540998740000, 42450952193729002420000),
   (660472978887181524900, 42450952193729002420000, 15098095612540998740000),
   (660472978887181524900, 42450952193729002420000, 42450952193729002420000),
   (748750348313574967700, 23590585989217000010000, 38204707005392002370000),
   (748750348313574967700, 38204707005392002370000, 23590585989217000010000),
   (748750348313574967700, 38204707005392002370000, 38204707005392002370000),
   (749395222169209514200, 43802430840785000490000, 28098784579607999360000),
   (749395222169209514200, 28098784579607999360000, 43802430840785000490000),
   (749395222169209514200, 28098784579607999360000, 28098784579607999360000),
   (666943237051082979400, 54530204829192996390000, 22734897585402999430000),
   (666943237051082979400, 22734897585402999430000, 54530204829192996390000),
   (666943237051082979400, 22734897585402999430000, 22734897585402999430000),
   (544458555695100533000, 65088177698254001680000, 17455911150872999160000),
   (544458555695100533000, 17455911150872999160000, 65088177698254001680000),
   (544458555695100533000, 17455911150872999160000, 17455911150872999160000),
   (409472033044673035300, 75348314559713003290000, 12325842720143999340000),
   (409472033044673035300, 12325842720143999340000, 75348314559713003290000),
   (409472033044673035300, 12325842720143999340000, 12325842720143999340000),
   (278769379430389256700, 83983154221560996080000, 8008422889220000174000),
   (278769379430389256700, 8008422889220000174000, 83983154221560996080000),
   (278769379430389256700, 8008422889220000174000, 8008422889220000174000),
   (159560823670598802200, 90445106518420004260000, 4777446740789999952000),
   (159560823670598802200, 4777446740789999952000, 90445106518420004260000),
   (159560823670598802200, 4777446740789999952000, 4777446740789999952000),
   (64835757216352252020, 95655897063971995210000, 2172051468013999967000),
   (64835757216352252020, 2172051468013999967000, 95655897063971995210000),
   (64835757216352252020, 2172051468013999967000, 2172051468013999967000),
   (14913141306745859380, 99047064476913004860000, 476467761544000032600),
   (14913141306745859380, 476467761544000032600, 99047064476913004860000),
   (14913141306745859380, 476467761544000032600, 476467761544000032600),
   (49945284253944820410, 92537119334999999240, 41529527091330997730000),
   (49945284253944820410, 92537119334999999240, 58377935789334001180000),
   (49945284253944820410, 41529527091330997730000, 92537119334999999240),
   (49945284253944820410, 41529527091330997730000, 58377935789334001180000),
   (49945284253944820410, 58377935789334001180000, 92537119334999999240),
   (49945284253944820410, 58377935789334001180000, 41529527091330997730000),
   (23142542458662665460, 138592585556000010700, 6118990978535000097000),
   (23142542458662665460, 138592585556000010700, 93742416435909003970000),
   (23142542458662665460, 6118990978535000097000, 138592585556000010700),
   (23142542458662665460, 6118990978535000097000, 93742416435909003970000),
   (23142542458662665460, 93742416435909003970000, 138592585556000010700),
   (23142542458662665460, 93742416435909003970000, 6118990978535000097000),
   (61722566819120646720, 368241545590999993700, 16490869013691000780000),
   (61722566819120646720, 368241545590999993700, 83140889440718002130000),
   (61722566819120646720, 16490869013691000780000, 368241545590999993700),
   (61722566819120646720, 16490869013691000780000, 83140889440718002130000),
   (61722566819120646720, 83140889440718002130000, 368241545590999993700),
   (61722566819120646720, 83140889440718002130000, 16490869013691000780000),
   (28535992612160307510, 390322342416000002800, 2503506223199999936000),
   (28535992612160307510, 390322342416000002800, 97106171434384003230000),
   (28535992612160307510, 2503506223199999936000, 390322342416000002800),
   (28535992612160307510, 2503506223199999936000, 97106171434384003230000),
   (28535992612160307510, 97106171434384003230000, 390322342416000002800),
   (28535992612160307510, 97106171434384003230000, 2503506223199999936000),
   (56347306293881203010, 323324815500999982600, 30606446515109997360000),
   (56347306293881203010, 323324815500999982600, 69070228669388999960000),
   (56347306293881203010, 30606446515109997360000, 323324815500999982600),
   (56347306293881203010, 30606446515109997360000, 69070228669388999960000),
   (56347306293881203010, 69070228669388999960000, 323324815500999982600),
   (56347306293881203010, 69070228669388999960000, 30606446515109997360000),
   (87393347470366854100, 646743211223999980200, 10707328373022000080000),
   (87393347470366854100, 646743211223999980200, 88645928415754005060000),
   (87393347470366854100, 10707328373022000080000, 646743211223999980200),
   (87393347470366854100, 10707328373022000080000, 88645928415754005060000),
   (87393347470366854100, 88645928415754005060000, 646743211223999980200),
   (87393347470366854100, 88645928415754005060000, 10707328373022000080000),
   (59140940751582847090, 324747549132999979000, 22995754934557999240000),
   (59140940751582847090, 324747549132999979000, 76679497516308003920000),
   (59140940751582847090, 22995754934557999240000, 324747549132999979000),
   (59140940751582847090, 22995754934557999240000, 76679497516308003920000),
   (59140940751582847090, 76679497516308003920000, 324747549132999979000),
   (59140940751582847090, 76679497516308003920000, 22995754934557999240000),
   (99541964733751691490, 867509080675000002200, 33703663330577998680000),
   (99541964733751691490, 867509080675000002200, 65428827588745996910000),
   (99541964733751691490, 33703663330577998680000, 867509080675000002200),
   (99541964733751691490, 33703663330577998680000, 65428827588745996910000),
   (99541964733751691490, 65428827588745996910000, 867509080675000002200),
   (99541964733751691490, 65428827588745996910000, 33703663330577998680000),
   (95020639751798997680, 1559702646730999967000, 5625657618206000160000),
   (95020639751798997680, 1559702646730999967000, 92814639735062998140000),
   (95020639751798997680, 5625657618206000160000, 1559702646730999967000),
   (95020639751798997680, 5625657618206000160000, 92814639735062998140000),
   (95020639751798997680, 92814639735062998140000, 1559702646730999967000),
   (95020639751798997680, 92814639735062998140000, 5625657618206000160000),
   (224918290440872560600, 1797672125369000062000, 40245137521239998660000),
   (224918290440872560600, 1797672125369000062000, 57957190353390997120000),
   (224918290440872560600, 40245137521239998660000, 1797672125369000062000),
   (224918290440872560600, 40245137521239998660000, 57957190353390997120000),
   (224918290440872560600, 57957190353390997120000, 1797672125369000062000),
   (224918290440872560600, 57957190353390997120000, 40245137521239998660000),
   (173935973013735942700, 1712424535389000038000, 24365470201083000430000),
   (173935973013735942700, 1712424535389000038000, 73922105263528004040000),
   (173935973013735942700, 24365470201083000430000, 1712424535389000038000),
   (173935973013735942700, 24365470201083000430000, 73922105263528004040000),
   (173935973013735942700, 73922105263528004040000, 1712424535389000038000),
   (173935973013735942700, 73922105263528004040000, 24365470201083000430000),
   (205119951836197668400, 2288340534657999983000, 16538958561452998810000),
   (205119951836197668400, 2288340534657999983000, 81172700903887995420000),
   (205119951836197668400, 16538958561452998810000, 2288340534657999983000),
   (205119951836197668400, 16538958561452998810000, 81172700903887995420000),
   (205119951836197668400, 81172700903887995420000, 2288340534657999983000),
   (205119951836197668400, 81172700903887995420000, 16538958561452998810000),
   (201088077487208104200, 3273759728777000250000, 9930187449584999826000),
   (201088077487208104200, 3273759728777000250000, 86796052821639002590000),
   (201088077487208104200, 9930187449584999826000, 3273759728777000250000),
   (201088077487208104200, 9930187449584999826000, 86796052821639002590000),
   (201088077487208104200, 86796052821639002590000, 3273759728777000250000),
   (201088077487208104200, 86796052821639002590000, 9930187449584999826000),
   (301658233039753297500, 3382101234234000109000, 30847833306904998140000),
   (301658233039753297500, 3382101234234000109000, 65770065458860005330000),
   (301658233039753297500, 30847833306904998140000, 3382101234234000109000),
   (301658233039753297500, 30847833306904998140000, 65770065458860005330000),
   (301658233039753297500, 65770065458860005330000, 3382101234234000109000),
   (301658233039753297500, 65770065458860005330000, 30847833306904998140000),
   (197314515106479905800, 3554761446001999947000, 46066831859210999320000),
   (197314515106479905800, 3554761446001999947000, 50378406694787003510000),
   (197314515106479905800, 46066831859210999320000, 3554761446001999947000),
   (197314515106479905800, 46066831859210999320000, 50378406694787003510000),
   (197314515106479905800, 50378406694787003510000, 3554761446001999947000),
   (197314515106479905800, 50378406694787003510000, 46066831859210999320000),
   (332202226884013417800, 5053979030687000273000, 21881529945392999560000),
   (332202226884013417800, 5053979030687000273000, 73064491023919997390000),
   (332202226884013417800, 21881529945392999560000, 5053979030687000273000),
   (332202226884013417800, 21881529945392999560000, 73064491023919997390000),
   (332202226884013417800, 73064491023919997390000, 5053979030687000273000),
   (332202226884013417800, 73064491023919997390000, 21881529945392999560000),
   (412715292803922904900, 5701471491572999983000, 37920955156026997510000),
   (412715292803922904900, 5701471491572999983000, 56377573352399001920000),
   (412715292803922904900, 37920955156026997510000, 5701471491572999983000),
   (412715292803922904900, 37920955156026997510000, 56377573352399001920000),
   (412715292803922904900, 56377573352399001920000, 5701471491572999983000),
   (412715292803922904900, 56377573352399001920000, 37920955156026997510000),
   (324802831670320535400, 6415280642119999821000, 14296081941818999940000),
   (324802831670320535400, 6415280642119999821000, 79288637416061003020000),
   (324802831670320535400, 14296081941818999940000, 6415280642119999821000),
   (324802831670320535400, 14296081941818999940000, 79288637416061003020000),
   (324802831670320535400, 79288637416061003020000, 6415280642119999821000),
   (324802831670320535400, 79288637416061003020000, 14296081941818999940000),
   (462638907207330116900, 8050114828762999775000, 28373128210592002410000),
   (462638907207330116900, 8050114828762999775000, 63576756960644997820000),
   (462638907207330116900, 28373128210592002410000, 8050114828762999775000),
   (462638907207330116900, 28373128210592002410000, 63576756960644997820000),
   (462638907207330116900, 63576756960644997820000, 8050114828762999775000),
   (462638907207330116900, 63576756960644997820000, 28373128210592002410000),
   (458246036314713996900, 10436706813453000550000, 19673744100443998910000),
   (458246036314713996900, 10436706813453000550000, 69889549086102997770000),
   (458246036314713996900, 19673744100443998910000, 10436706813453000550000),
   (458246036314713996900, 19673744100443998910000, 69889549086102997770000),
   (458246036314713996900, 69889549086102997770000, 10436706813453000550000),
   (458246036314713996900, 69889549086102997770000, 19673744100443998910000),
   (578476231404883526500, 11384489442874999590000, 35588914121165998730000),
   (578476231404883526500, 11384489442874999590000, 53026596435958994750000),
   (578476231404883526500, 35588914121165998730000, 11384489442874999590000),
   (578476231404883526500, 35588914121165998730000, 53026596435958994750000),
   (578476231404883526500, 53026596435958994750000, 11384489442874999590000),
   (578476231404883526500, 53026596435958994750000, 35588914121165998730000),
   (588055823380458520700, 14536348771551999000000, 25981868535190999480000),
   (588055823380458520700, 14536348771551999000000, 59481782693256002310000),
   (588055823380458520700, 25981868535190999480000, 14536348771551999000000),
   (588055823380458520700, 25981868535190999480000, 59481782693256002310000),
   (588055823380458520700, 59481782693256002310000, 14536348771551999000000),
   (588055823380458520700, 59481782693256002310000, 25981868535190999480000),
   (691235109108270014800, 18994565282198000440000, 32192318123129998190000),
   (691235109108270014800, 18994565282198000440000, 48813116594672001370000),
   (691235109108270014800, 32192318123129998190000, 18994565282198000440000),
   (691235109108270014800, 32192318123129998190000, 48813116594672001370000),
   (691235109108270014800, 48813116594672001370000, 18994565282198000440000),
   (691235109108270014800, 48813116594672001370000, 32192318123129998190000)]

end Verif
