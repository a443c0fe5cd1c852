import Mathlib.Data.Nat.Notation
import Mathlib.Data.Int.Notation

/-
Tables of the quadrature rules: Gauss rule with positive weights on the tetrahedron.

A decimal constant c of the source is stored as the integer c * 10^23; a row is (weight, x, y, z). The
rounding of the constants to doubles is left out.
-/
namespace Verif

/-- Gauss rule with positive weights on the tetrahedron, number of points: 1 (`GeDiM/src/Quadrature/Quadrature_Gauss3D_Tetrahedron_PositiveWeights.cpp:29-36`). -/
def tetraPosTab1 : List (ℤ × ℕ × ℕ × ℕ) :=
  [(16666666666666655000000, 25000000000000000000000, 25000000000000000000000, 25000000000000000000000)]

/-- Gauss rule with positive weights on the tetrahedron, number of points: 4 (`GeDiM/src/Quadrature/Quadrature_Gauss3D_Tetrahedron_PositiveWeights.cpp:38-56`). -/
def tetraPosTab2 : List (ℤ × ℕ × ℕ × ℕ) :=
  [(5008682322282935500000, 36531451881463450000000, 18002969351036546000000, 692323557362746560000),
   (4646292944776125200000, 45746158708559548000000, 15593312049918590000000, 38176535606934675000000),
   (5318232258357907800000, 37551502872933986000, 21607642918484790000000, 43070170707783589000000),
   (1693459141249677500000, 12366680032845828000000, 82157254096761967000000, 3993304864149840900000)]

/-- Gauss rule with positive weights on the tetrahedron, number of points: 6 (`GeDiM/src/Quadrature/Quadrature_Gauss3D_Tetrahedron_PositiveWeights.cpp:58-84`). -/
def tetraPosTab3 : List (ℤ × ℕ × ℕ × ℕ) :=
  [(2209467119074079800000, 43985894764927508000000, 19011700243928378000000, 1140332944455733700000),
   (3740252781959287100000, 12480486216524728000000, 15868516322744061000000, 58566280565521567000000),
   (2134440211845776300000, 34544415571973058000000, 1090521221118911900000, 28152380212354616000000),
   (4200066346825044600000, 14148275196950416000000, 57122605214911504000000, 14691839008716975000000),
   (2343740161006716000000, 3787163178235680700000, 17081692516498900000000, 15281814309092714000000),
   (2038700045955749900000, 64142979149569668000000, 16200149169852424000000, 18385035049209791000000)]

/-- Gauss rule with positive weights on the tetrahedron, number of points: 11 (`GeDiM/src/Quadrature/Quadrature_Gauss3D_Tetrahedron_PositiveWeights.cpp:86-132`). -/
def tetraPosTab4 : List (ℤ × ℕ × ℕ × ℕ) :=
  [(1774467235924834200000, 10660417256199370000000, 9720464458758328000000, 68439041545303980000000),
   (1837237207141622200000, 32923295974264682000000, 2956949520647991800000, 31790356021339439000000),
   (2582935266937440300000, 10384411641099292000000, 43271023904776851000000, 35382323920929704000000),
   (3223513534160565200000, 30444840243449695000000, 24027666492807273000000, 12680172591539179000000),
   (1269378587425972400000, 53800720391618584000000, 12941137378891021000000, 33019041483746481000000),
   (1323778001133754300000, 899126009333577930000, 12154199133392796000000, 30649398842969028000000),
   (1157832765627255800000, 43295349048135556000000, 45076587609127677000000, 5945661629943396100000),
   (998886419109324370000, 5334123953574526600000, 41926631387951308000000, 4778143555908642000000),
   (923229981192939110000, 74122888209362281000000, 6722329489338335600000, 3518392977359868100000),
   (921222819265613700000, 8140491840285939100000, 75250850700965499000000, 6809937093820644900000),
   (654184848747332670000, 17469405869723079000000, 4049050672759028900000, 1356070187980264400000)]

/-- Gauss rule with positive weights on the tetrahedron, number of points: 23 (`GeDiM/src/Quadrature/Quadrature_Gauss3D_Tetrahedron_PositiveWeights.cpp:138-232`). -/
def tetraPosTab6 : List (ℤ × ℕ × ℕ × ℕ) :=
  [(118263247527658770000, 2431897424814286400000, 3883608434488451700000, 90292879901361123000000),
   (525156831378439500000, 26784419818357558000000, 6476943693005302000000, 63676750855851372000000),
   (403854781290738370000, 2346779557305417700000, 6477516044710537900000, 39086205067101210000000),
   (814834598374035260000, 6373289529499769100000, 27790366933007776000000, 59490968902179575000000),
   (883888731802822710000, 8367881406005511800000, 6609866241468073700000, 63005455511098940000000),
   (720654944924555440000, 32937971854919856000000, 32511965857702541000000, 32683350461904570000000),
   (1118930270209282500000, 30416926534978173000000, 31919428034893110000000, 4438334435720840700000),
   (997022461023818440000, 3828867073824537800000, 32838817123122155000000, 32028743369769230000000),
   (1043574588021854500000, 35193919733470425000000, 5509902249072587400000, 38108430890631001000000),
   (1072233699551457300000, 15210381130993061000000, 12464996363748623000000, 20123456736442094000000),
   (726506634343818820000, 62432136355342971000000, 6592492316000980700000, 25359367474320027000000),
   (376094454635714230000, 21129765858158636000000, 735452383806949050000, 25118449527752962000000),
   (776885568776344330000, 6319998094256981700000, 61745572014726879000000, 25844914898392557000000),
   (1876656741567793400000, 25582078426498622000000, 27942005294598821000000, 26956992963327198000000),
   (898916843805199100000, 57734578138972681000000, 28772509482646419000000, 6462063807336862500000),
   (829477168191903970000, 6517799276337041300000, 59471730187579563000000, 6660329800760331200000),
   (1051106031425340400000, 53006327548101684000000, 6678959978173787400000, 7699271710096737600000),
   (785800507871019590000, 24844954011889481000000, 62654020170888225000000, 6211553318359868500000),
   (425072071117373050000, 21304118323618576000000, 6001058302026907000000, 2584268626070314300000),
   (661901627484703680000, 5399614083591455100000, 27578630046985092000000, 6001614916616857700000),
   (265424653083396000000, 84113895166231833000000, 5132520616520291900000, 3726475213835563100000),
   (173722262061598900000, 878195777751886700000, 4057605106681792100000, 8860035046891030800000),
   (120687948197782780000, 2286582381402326900000, 90377000133218177000000, 2933572108317896600000)]

/-- Gauss rule with positive weights on the tetrahedron, number of points: 44 (`GeDiM/src/Quadrature/Quadrature_Gauss3D_Tetrahedron_PositiveWeights.cpp:237-415`). -/
def tetraPosTab8 : List (ℤ × ℕ × ℕ × ℕ) :=
  [(29086392255094209000, 1760715612687783300000, 885559427870506390000, 94856392979900672000000),
   (251062824751718470000, 18907446887003329000000, 3620467192851846400000, 73136736003608904000000),
   (164608613248111930000, 23074349679464926000000, 61133653369188412000000, 557577303043847550000),
   (168815354179143570000, 2580684887253256700000, 2777675799356517400000, 46654058589091907000000),
   (293542269752224440000, 4648612941109269600000, 15648668504006621000000, 75149653615183787000000),
   (260273153396343780000, 24963708305787544000000, 19554608192260209000000, 54179318246180941000000),
   (299814831630999030000, 4908534432749626200000, 4149415901827839500000, 71717735709394992000000),
   (275489446675871710000, 25791667315430900000000, 22097746499881787000000, 1239592336019523600000),
   (375076099467018310000, 4312238337787984600000, 41507658426998889000000, 49479916931999141000000),
   (213323056210326870000, 19990672903292150000000, 47940665335286570000000, 32009560675039811000000),
   (454248932241217790000, 12397848932781852000000, 6224439946102039400000, 40365477501005875000000),
   (538216677347438860000, 3383673809722410900000, 21251922611752927000000, 50564195098037001000000),
   (469761431666783530000, 38288050116572686000000, 39727545746144288000000, 8173362820479128400000),
   (402639065463559870000, 47213321954967347000000, 4544737426285872000000, 43566699454566282000000),
   (537354222398790050000, 49359008083402001000000, 21613969263007926000000, 3919057319753552900000),
   (609168178460550630000, 25022744629303861000000, 4529074988858342000000, 49314476795906453000000),
   (692791506924556740000, 18224604922336088000000, 42840777073601877000000, 6194696154684473100000),
   (651045165815844050000, 22808018405507902000000, 14251462990889474000000, 12814373976661755000000),
   (418984767843144300000, 3082247209993085500000, 18126219117094550000000, 25934638915961017000000),
   (881048811767083310000, 16469550590032833000000, 24952076607995249000000, 24990555072575496000000),
   (545454579225691100000, 4243030114562275400000, 48622524586615984000000, 27523602729990654000000),
   (929874796628790860000, 20033070687780311000000, 22746204998675512000000, 44895452866369778000000),
   (889230040797589840000, 41189620364841217000000, 15825909334589039000000, 20739173514062348000000),
   (451958974758093210000, 51110607191357682000000, 2882725890093534900000, 22954071307265550000000),
   (668313419022167200000, 48351828029101007000000, 22954061506357476000000, 24201755731748040000000),
   (862993732316806770000, 20964230287064611000000, 48531355763806933000000, 19861997766923120000000),
   (379062010575060940000, 25047192191732082000000, 2261090963666032000000, 22243464249277861000000),
   (245331786257120670000, 3678064973474803200000, 72051116571787177000000, 20436892390732542000000),
   (114957138606260950000, 46181172516826269000000, 46531516041303644000000, 542218330717839350000),
   (282920487633579270000, 5045500693172464600000, 3938021868450564100000, 17319560868335107000000),
   (289820042708524400000, 74857456074576301000000, 4543453035210959200000, 16329934329935400000000),
   (375987312558372520000, 3095052921613309800000, 42465005407958928000000, 13620624122519834000000),
   (391648725644884280000, 5438301560623375700000, 21626414889065132000000, 5125376513387364800000),
   (335778514113156940000, 70165677606438981000000, 20449181374722297000000, 4686865328087323100000),
   (342417272409377890000, 4478021549603195700000, 71957333007169499000000, 5599064468210208200000),
   (298313396788214790000, 72370949504174886000000, 4620058214866440400000, 4349881445195035600000),
   (125352505864346800000, 3576257087871998600000, 50032967203297640000000, 811205075570588760000),
   (365408310108692940000, 44877800775248233000000, 4105029814548233300000, 4568536574611802700000),
   (228929542638090520000, 16438693098480811000000, 3985667792342306700000, 3448207547894273400000),
   (256474090206847880000, 15063771178142529000000, 76236788495445285000000, 5243838992870316500000),
   (197757011617887260000, 41392128343882006000000, 49825496178220424000000, 7975787096690541100000),
   (42448341989049571000, 457118437451570470000, 4868900463902193400000, 2216207109666239500000),
   (34651409450314665000, 94080820283160038000000, 3005224777593301600000, 671967882215318730000),
   (25232423251917693000, 97187836901517857000, 95738162605830279000000, 1600798423129832000000)]

/-- Gauss rule with positive weights on the tetrahedron, number of points: 74 (`GeDiM/src/Quadrature/Quadrature_Gauss3D_Tetrahedron_PositiveWeights.cpp:420-718`). -/
def tetraPosTab10 : List (ℤ × ℕ × ℕ × ℕ) :=
  [(344509888933502120000, 11212438646497920000000, 53258892365005184000000, 23624195884576110000000),
   (344509888934207410000, 53258892364993549000000, 11904473103927615000000, 23624195884566077000000),
   (344509888934150900000, 11904473103928252000000, 11212438646502285000000, 23624195884569876000000),
   (206466077766167620000, 11453798631584131000000, 49089534676099722000000, 2495402206723823500000),
   (206466077766224170000, 49089534676055291000000, 36961264485621698000000, 2495402206724007000000),
   (206466077765784030000, 36961264485614787000000, 11453798631602441000000, 2495402206716535200000),
   (110339098374802760000, 12663949087887125000000, 3070196087069633500000, 81147722949819445000000),
   (110339098374875400000, 3070196087074501100000, 3118131875221094200000, 81147722949797096000000),
   (110339098374750430000, 3118131875220213300000, 12663949087858203000000, 81147722949848955000000),
   (102319237330751990000, 62025830128988668000000, 32998418756342823000000, 3240346370091286300000),
   (102319237330796010000, 32998418756371140000000, 1735404744578364400000, 3240346370092632400000),
   (102319237330424600000, 1735404744568445600000, 62025830129005100000000, 3240346370091653400000),
   (423451264186064380000, 45348592435878937000000, 29863508978936393000000, 12855639235995259000000),
   (423451264185951280000, 29863508978933517000000, 11932259349191676000000, 12855639235976335000000),
   (423451264185864630000, 11932259349174155000000, 45348592435899365000000, 12855639235995811000000),
   (209468598437527330000, 40437701448836849000000, 41747625187081006000000, 16133714217116055000000),
   (209468598437311660000, 41747625187090798000000, 1680959146964852700000, 16133714217108092000000),
   (209468598436989960000, 1680959146959901100000, 40437701448836633000000, 16133714217107481000000),
   (116416016749959000000, 78057224582438833000000, 3518958226876817100000, 3307359982554341400000),
   (116416016750039620000, 3518958226870844800000, 15116457208163972000000, 3307359982557710200000),
   (116416016750060480000, 15116457208151762000000, 78057224582415075000000, 3307359982557282100000),
   (219141969444066950000, 63392803439035716000000, 2309725877556995100000, 17336085927365996000000),
   (219141969443943220000, 2309725877555652800000, 16961384756039494000000, 17336085927373163000000),
   (219141969443907870000, 16961384756040238000000, 63392803439030154000000, 17336085927375855000000),
   (228445078028979240000, 63358756531439797000000, 17701835101891766000000, 16505305534639961000000),
   (228445078028919130000, 17701835101894686000000, 2434102832027351700000, 16505305534637510000000),
   (228445078028839590000, 2434102832026422600000, 63358756531426108000000, 16505305534650741000000),
   (152299665603331400000, 3029393775770432300000, 35103092666191343000000, 3266058005326483900000),
   (152299665603406000000, 35103092666177177000000, 58601455552725168000000, 3266058005328996400000),
   (152299665603490500000, 58601455552747717000000, 3029393775772132300000, 3266058005327218700000),
   (447115747295041920000, 30200190732664511000000, 32834552147384155000000, 30302612894209485000000),
   (447115747295147910000, 32834552147382839000000, 6662644225740188600000, 30302612894185482000000),
   (447115747295200990000, 6662644225731274800000, 30200190732674409000000, 30302612894207820000000),
   (187369855848443040000, 41370112844953638000000, 1267643164855117300000, 40907522401187124000000),
   (187369855848234420000, 1267643164854572800000, 16454721588991528000000, 40907522401194774000000),
   (187369855848359920000, 16454721589001103000000, 41370112844943474000000, 40907522401200663000000),
   (468209374248613770000, 12071311163580888000000, 33951306262113812000000, 41109265749486679000000),
   (468209374249022120000, 33951306262090197000000, 12868116824813047000000, 41109265749495805000000),
   (468209374249107040000, 12868116824819364000000, 12071311163585552000000, 41109265749501134000000),
   (208391316671666580000, 15026879025170381000000, 8302494688216782700000, 3849678186896454000000),
   (208391316671415610000, 8302494688196340700000, 72820948099742733000000, 3849678186899394700000),
   (208391316671528710000, 72820948099706873000000, 15026879025175544000000, 3849678186899516800000),
   (455388319916118220000, 51591681661427446000000, 13246701074477152000000, 10744646158505849000000),
   (455388319916174860000, 13246701074464198000000, 24416971105590402000000, 10744646158515403000000),
   (455388319916337410000, 24416971105566457000000, 51591681661444122000000, 10744646158519200000000),
   (196949386481855200000, 1228042856243459000000, 41260083617916971000000, 39790436218571701000000),
   (196949386482532210000, 41260083617920201000000, 17721437307270657000000, 39790436218556574000000),
   (196949386481996620000, 17721437307274238000000, 1228042856244417100000, 39790436218559327000000),
   (119146190910778840000, 3220528641771432800000, 81490228294050293000000, 11937679513633488000000),
   (119146190910660940000, 81490228294079792000000, 3351563550541997200000, 11937679513606972000000),
   (119146190910697700000, 3351563550541740400000, 3220528641772855300000, 11937679513586152000000),
   (277740490917948930000, 17579960724930233000000, 2935511686041808500000, 62084151043564151000000),
   (277740490917552980000, 2935511686037193700000, 17400376545457874000000, 62084151043572167000000),
   (277740490917618380000, 17400376545462784000000, 17579960724921495000000, 62084151043577629000000),
   (169583101522393890000, 3114461249008687200000, 59927380113922679000000, 33659752638302748000000),
   (169583101522511990000, 59927380113951612000000, 3298405998767678400000, 33659752638270657000000),
   (169583101522426440000, 3298405998767940000000, 3114461249007835200000, 33659752638251189000000),
   (189870309750379630000, 33794891982642750000000, 3573908441154150000000, 59253287017089751000000),
   (189870309750301870000, 3573908441154553800000, 3377912559111843200000, 59253287017071365000000),
   (189870309750404380000, 3377912559113952600000, 33794891982609487000000, 59253287017122269000000),
   (136867455413506780000, 55966008885545959000000, 18076024957022707000000, 743879573116752390000),
   (136867455413690810000, 18076024957005651000000, 25214086584332107000000, 743879573119934220000),
   (136867455413721920000, 25214086584303363000000, 55966008885570240000000, 743879573121467370000),
   (13168318579095435000, 94671984829235645000000, 666708044834996020000, 806750556190460700000),
   (13168318579197524000, 666708044865899770000, 3854556569737464800000, 806750556177968090000),
   (13168318579277532000, 3854556569748024400000, 94671984829185174000000, 806750556217407380000),
   (28209430652597527000, 87402513276493221000000, 10359366024755479000000, 1855431505434561700000),
   (28209430652452575000, 10359366024800282000000, 382689193304404370000, 1855431505433705100000),
   (28209430652411380000, 382689193302946430000, 87402513276516769000000, 1855431505435724300000),
   (776308699740319110000, 25707198076242777000000, 25707198076255072000000, 22878405771246255000000),
   (6365271938318001200, 484488952776733740000, 484488952757248200000, 98546533141673986000000),
   (195918431534477250000, 16695976931720635000000, 16695976931758033000000, 49912069204811210000000),
   (465192794803735620000, 31820620082032386000000, 31820620082059226000000, 4538139753862905500000),
   (190282889458295830000, 13365994953239232000000, 13365994953261118000000, 59902015140252740000000)]

/-- Gauss rule with positive weights on the tetrahedron, number of points: 122 (`GeDiM/src/Quadrature/Quadrature_Gauss3D_Tetrahedron_PositiveWeights.cpp:720-1210`). -/
def tetraPosTab12 : List (ℤ × ℕ × ℕ × ℕ) :=
  [(34771688220674719000, 52247155135540169000000, 43127482811150730000000, 1083320231285081700000),
   (34771688220676140000, 43127482811150997000000, 3542041822023711500000, 1083320231285081700000),
   (34771688220659513000, 3542041822023279200000, 52247155135540813000000, 1083320231284592100000),
   (104984618571288460000, 10216956909428958000000, 2887800338774406500000, 24743124363556326000000),
   (104984618571292350000, 2887800338774456500000, 62152118388240563000000, 24743124363555932000000),
   (104984618571296230000, 62152118388240096000000, 10216956909428315000000, 24743124363557167000000),
   (218990865476048580000, 41069331409015108000000, 8955250910701401100000, 36476024919336947000000),
   (218990865476039730000, 8955250910700871000000, 13499392760945989000000, 36476024919337863000000),
   (218990865476034440000, 13499392760945814000000, 41069331409015170000000, 36476024919338229000000),
   (143062584229012640000, 7656778420928400700000, 26005598736275165000000, 6193417797899665500000),
   (143062584229009800000, 26005598736276697000000, 60144205044896659000000, 6193417797899359500000),
   (143062584229007340000, 60144205044895638000000, 7656778420928100900000, 6193417797899359500000),
   (258777979011138620000, 11476751676310626000000, 25990315408583575000000, 23345393195130226000000),
   (258777979011113850000, 25990315408583436000000, 39187539719976372000000, 23345393195130426000000),
   (258777979011087350000, 39187539719975678000000, 11476751676309901000000, 23345393195131015000000),
   (46939308112213995000, 65507963102984157000000, 30506096657721066000000, 2647035150984013200000),
   (46939308112211876000, 30506096657720561000000, 1338905088310765600000, 2647035150984013200000),
   (46939308112218240000, 1338905088311047700000, 65507963102983435000000, 2647035150984074600000),
   (198133086526867080000, 60214854663617090000000, 7994348658717376200000, 19726008533411526000000),
   (198133086526874150000, 7994348658717080600000, 12064788144253705000000, 19726008533412207000000),
   (198133086526870600000, 12064788144253871000000, 60214854663617168000000, 19726008533412290000000),
   (122967281632228260000, 54595046099892119000000, 2013433532281483400000, 31557230285725674000000),
   (122967281632218200000, 2013433532281297400000, 11834290082101011000000, 31557230285725979000000),
   (122967281632213060000, 11834290082100891000000, 54595046099891753000000, 31557230285726101000000),
   (130117266131188170000, 48104263226980210000000, 23379217305788294000000, 26978192498259290000000),
   (130117266131204420000, 23379217305788147000000, 1538326968972497700000, 26978192498258957000000),
   (130117266131203010000, 1538326968972486600000, 48104263226980293000000, 26978192498259218000000),
   (325142680513291990000, 10024975437213597000000, 22084175931337111000000, 45145994950997698000000),
   (325142680513293770000, 22084175931337641000000, 22744853680451491000000, 45145994950997081000000),
   (325142680513279680000, 22744853680451224000000, 10024975437213578000000, 45145994950997820000000),
   (281807848122357130000, 42612797425565280000000, 13012709476202475000000, 12738316872602068000000),
   (281807848122325340000, 13012709476202342000000, 31636176225630913000000, 12738316872601332000000),
   (281807848122339480000, 31636176225630142000000, 42612797425565724000000, 12738316872601516000000),
   (144812622511858680000, 7462605132720862000000, 12803632767886117000000, 8026101789295100900000),
   (144812622511870700000, 12803632767886577000000, 71707660310097165000000, 8026101789294978800000),
   (144812622511866990000, 71707660310097066000000, 7462605132721156200000, 8026101789294978800000),
   (52112178757075464000, 85198504894924398000000, 5919699437842151900000, 1765696019083472600000),
   (52112178757073697000, 5919699437842110300000, 7116099648149819300000, 1765696019083350100000),
   (52112178757074401000, 7116099648149683300000, 85198504894924787000000, 1765696019083350100000),
   (128605263861693860000, 46416106080497505000000, 8568157353024366500000, 42682818675140055000000),
   (128605263861695100000, 8568157353024231900000, 2332917891338064800000, 42682818675139444000000),
   (128605263861694030000, 2332917891338039500000, 46416106080498754000000, 42682818675139444000000),
   (52566226708936070000, 6123548744419522000000, 23241799895638673000000, 69751890095238733000000),
   (52566226708949157000, 23241799895638701000000, 882761264703509070000, 69751890095238978000000),
   (52566226708940852000, 882761264703300730000, 6123548744418645000000, 69751890095238611000000),
   (152013101811932060000, 29224826431062295000000, 18590040868376576000000, 50259862335502759000000),
   (152013101811930280000, 18590040868376681000000, 1925270365058311100000, 50259862335502203000000),
   (152013101811933470000, 1925270365058389900000, 29224826431063372000000, 50259862335502270000000),
   (52719786385277737000, 2461521681961591600000, 2435991006993629800000, 85251447165013550000000),
   (52719786385278442000, 2435991006993599000000, 9851040146031525600000, 85251447165013250000000),
   (52719786385273671000, 9851040146030470800000, 2461521681961512100000, 85251447165014527000000),
   (313056307282158280000, 9476261902902026500000, 40450236856326638000000, 29182351556725106000000),
   (313056307282149430000, 40450236856327587000000, 20891149684046770000000, 29182351556724367000000),
   (313056307282156500000, 20891149684046709000000, 9476261902901940400000, 29182351556725011000000),
   (192529672408033380000, 29622279508794808000000, 6201821930269116300000, 56171396372075422000000),
   (192529672408029870000, 6201821930268870000000, 8004502188860085400000, 56171396372076454000000),
   (192529672408035160000, 8004502188860687700000, 29622279508794158000000, 56171396372076399000000),
   (88871535906322099000, 34253199795015132000000, 917208007007447310000, 48586246073940775000000),
   (88871535906324213000, 917208007007472470000, 16243346124037150000000, 48586246073941020000000),
   (88871535906313262000, 16243346124036881000000, 34253199795015127000000, 48586246073940653000000),
   (55660452794947519000, 69413997252952853000000, 2362764131444300400000, 26438108150681894000000),
   (55660452794953710000, 2362764131444528700000, 1785130464921016700000, 26438108150681333000000),
   (55660452794952995000, 1785130464920994100000, 69413997252953274000000, 26438108150681267000000),
   (195063892674593470000, 2493156404027393000000, 29729015531710984000000, 29744221741637306000000),
   (195063892674586380000, 29729015531710656000000, 38033606322624280000000, 29744221741637694000000),
   (195063892674588160000, 38033606322624602000000, 2493156404027280200000, 29744221741637233000000),
   (140308713417729850000, 27089020392896934000000, 56066588377001447000000, 15016256012779478000000),
   (140308713417734640000, 56066588377002036000000, 1828135217322229800000, 15016256012779111000000),
   (140308713417737980000, 1828135217322336300000, 27089020392896562000000, 15016256012779233000000),
   (70086907064837378000, 37710639941761737000000, 57487275891360734000000, 3049127948617796900000),
   (70086907064840381000, 57487275891361178000000, 1752956218259915700000, 3049127948617796900000),
   (70086907064851526000, 1752956218260150200000, 37710639941761287000000, 3049127948617980400000),
   (53693007254780611000, 2995755412959134900000, 48334269753205383000000, 47649367468328702000000),
   (53693007254786444000, 48334269753204645000000, 1020607365507011900000, 47649367468329246000000),
   (53693007254784677000, 1020607365506847100000, 2995755412959184200000, 47649367468328580000000),
   (185664679543300350000, 23637803333829163000000, 52675956699419924000000, 2542476511605206900000),
   (185664679543295040000, 52675956699418924000000, 21143763455146186000000, 2542476511605084400000),
   (185664679543291530000, 21143763455145753000000, 23637803333829863000000, 2542476511605023000000),
   (8429047994005049200, 95461848486672862000000, 457955574287854940000, 1790586600742503900000),
   (8429047994003722400, 457955574287581030000, 2289609338296848600000, 1790586600742320400000),
   (8429047994003493300, 2289609338296678300000, 95461848486673395000000, 1790586600742259000000),
   (138596805891823380000, 16333095462718961000000, 2561185935109308600000, 11544787129923621000000),
   (138596805891821450000, 2561185935109285300000, 69560931472248133000000, 11544787129923560000000),
   (138596805891830970000, 69560931472247589000000, 16333095462719088000000, 11544787129923927000000),
   (190993338236151590000, 44631551826494231000000, 40288162462845101000000, 2619956075625267500000),
   (190993338236155120000, 40288162462844490000000, 12460329635035577000000, 2619956075625267500000),
   (190993338236156880000, 12460329635034818000000, 44631551826495136000000, 2619956075625206100000),
   (365870685474072900000, 50754860512025490000000, 23164769521725381000000, 12662371323439151000000),
   (365870685474079930000, 23164769521725098000000, 13417998642809734000000, 12662371323439336000000),
   (365870685474076370000, 13417998642809545000000, 50754860512025912000000, 12662371323439520000000),
   (61295694635215105000, 84303254607833933000000, 3438582765934766700000, 9908661326227759200000),
   (61295694635212633000, 3438582765934687600000, 2349501300003490500000, 9908661326227330400000),
   (61295694635214932000, 2349501300003584500000, 84303254607834432000000, 9908661326227269400000),
   (133343267067583090000, 11831715754265457000000, 2742002486773299800000, 70164890411884639000000),
   (133343267067580970000, 2742002486773161000000, 15261391347076506000000, 70164890411884584000000),
   (133343267067582550000, 15261391347076586000000, 11831715754265074000000, 70164890411884950000000),
   (130775142572827430000, 8312515611213872100000, 68983951036990088000000, 2408109553674170700000),
   (130775142572834670000, 68983951036989488000000, 20295423798122136000000, 2408109553674231800000),
   (130775142572834150000, 20295423798122017000000, 8312515611213976100000, 2408109553674231800000),
   (202612293640232940000, 48910981472679943000000, 36700989373749937000000, 11512444438172977000000),
   (202612293640227650000, 36700989373750098000000, 2875584715397086500000, 11512444438172732000000),
   (202612293640225820000, 2875584715397026100000, 48910981472680076000000, 11512444438172915000000),
   (47266648548845928000, 74423850766316346000000, 430783216071417560000, 15234372051626938000000),
   (47266648548842735000, 430783216071223270000, 9910993965985168100000, 15234372051627243000000),
   (47266648548842735000, 9910993965985495600000, 74423850766316191000000, 15234372051627121000000),
   (21490934536169847000, 85890443918452186000000, 11764534481603789000000, 1981617795956238200000),
   (21490934536166841000, 11764534481603509000000, 363403803987536610000, 1981617795956115700000),
   (21490934536166136000, 363403803987449260000, 85890443918452464000000, 1981617795956115700000),
   (34938896941761688000, 79398884991222496000000, 355709537726917050000, 3305477917755669100000),
   (34938896941761688000, 355709537726856550000, 16939927553295059000000, 3305477917755730200000),
   (34938896941762041000, 16939927553294748000000, 79398884991222662000000, 3305477917755730200000),
   (36951072813010876000, 219091239834517690000, 29064176223692312000000, 67226686877716557000000),
   (36951072813002213000, 29064176223691901000000, 3490045658756771300000, 67226686877717290000000),
   (36951072812999735000, 3490045658756778200000, 219091239833891370000, 67226686877716746000000),
   (43580724293479074000, 69250141758804740000000, 7282912711688549500000, 52457122101769280000),
   (43580724293476597000, 7282912711688310800000, 23414488407404874000000, 52457122101646895000),
   (43580724293473773000, 23414488407405021000000, 69250141758805106000000, 52457122101463329000),
   (185099751221656410000, 11768433971455625000000, 11768433971455890000000, 64694698085632818000000),
   (3336665703934046100, 533607701964376130000, 533607701965167420000, 98399176894105511000000),
   (82382590694706501000, 33249695997663575000000, 33249695997664952000000, 250912007007457780000),
   (425285880021637930000, 30532958433605634000000, 30532958433606106000000, 8401124699181974900000),
   (491749456299963960000, 24821237155622891000000, 24821237155622405000000, 25536288533132812000000)]

/-- Gauss rule with positive weights on the tetrahedron, number of points: 177 (`GeDiM/src/Quadrature/Quadrature_Gauss3D_Tetrahedron_PositiveWeights.cpp:1212-1922`). -/
def tetraPosTab14 : List (ℤ × ℕ × ℕ × ℕ) :=
  [(72003111291315495000, 21536932251427968000000, 7162380480079726100000, 6614078429994586800000),
   (72003111291573773000, 7162380480015644000000, 64686608838484927000000, 6614078429932492000000),
   (72003111292065741000, 64686608838454340000000, 21536932251507912000000, 6614078429928020600000),
   (111660858619020100000, 8400311873016895500000, 24032632597437192000000, 10503653090557023000000),
   (111660858618895660000, 24032632597186115000000, 57063402438971900000000, 10503653090825305000000),
   (111660858618453720000, 57063402438994126000000, 8400311872986548900000, 10503653090737673000000),
   (25950618726125918000, 72200749784083862000000, 1455537626308001100000, 24311158083453549000000),
   (25950618727186051000, 1455537626344439500000, 2032554506140761200000, 24311158083562942000000),
   (25950618725533716000, 2032554506145871400000, 72200749784010687000000, 24311158083537057000000),
   (61392967004934612000, 54975956322040953000000, 1252905980804108800000, 12194064612228628000000),
   (61392967005271019000, 1252905980810361600000, 31577073085006852000000, 12194064612155939000000),
   (61392967005406967000, 31577073085129631000000, 54975956321856678000000, 12194064612202725000000),
   (57907882537745444000, 51751352571723130000000, 38456209686503567000000, 1294633315184843900000),
   (57907882537798288000, 38456209686477211000000, 8497804426566632500000, 1294633315189130400000),
   (57907882537461177000, 8497804426593037800000, 51751352571793174000000, 1294633315160596300000),
   (184827051921223090000, 16775247028179938000000, 35854452716358104000000, 34655632628529343000000),
   (184827051921532450000, 35854452716452889000000, 12714667626975829000000, 34655632628403804000000),
   (184827051919826550000, 12714667626909165000000, 16775247028324491000000, 34655632628380045000000),
   (64521156282135964000, 65338801886631170000000, 22473267551866205000000, 1699262706566823100000),
   (64521156282870121000, 22473267551858678000000, 10488667854884898000000, 1699262706599827300000),
   (64521156282494304000, 10488667854953983000000, 65338801886697573000000, 1699262706582864400000),
   (142509188144315030000, 30640477477896050000000, 8923568468759846000000, 9281715400051354600000),
   (142509188143404480000, 8923568468861770000000, 51154238653290840000000, 9281715399980750000000),
   (142509188144632530000, 51154238653258643000000, 30640477477872691000000, 9281715400041680400000),
   (50511962006144810000, 54047976806572673000000, 729435538130424050000, 24537631522293177000000),
   (50511962006668772000, 729435538155169020000, 20684956133010132000000, 24537631522168768000000),
   (50511962006699704000, 20684956133125032000000, 54047976806541520000000, 24537631522196007000000),
   (151797793529333240000, 30898469281738733000000, 9737203363532923000000, 49290887213599666000000),
   (151797793528503110000, 9737203363634446000000, 10073440141218457000000, 49290887213283741000000),
   (151797793529447990000, 10073440141062294000000, 30898469281773150000000, 49290887213695506000000),
   (16751105250402317000, 924736361783251060000, 39901390622718119000000, 58290374361211106000000),
   (16751105250589681000, 39901390622540300000000, 883498654301956290000, 58290374361367014000000),
   (16751105250894976000, 883498654308650930000, 924736361820402420000, 58290374361686847000000),
   (34411881507889313000, 58327801599222640000000, 2152082553456091700000, 37912080846046381000000),
   (34411881507765568000, 2152082553450796300000, 1608035001269167400000, 37912080846438173000000),
   (34411881507963912000, 1608035001313774100000, 58327801599371887000000, 37912080845879076000000),
   (16642515597055295000, 89896506053857483000000, 6883317395885990600000, 1446762164046363700000),
   (16642515597261454000, 6883317395833533900000, 1773414386215452200000, 1446762164064856000000),
   (16642515596955522000, 1773414386230786100000, 89896506053866365000000, 1446762164021684300000),
   (33555287854752003000, 38464570360739658000000, 274762397161573690000, 27645570880418396000000),
   (33555287854544291000, 274762397135520010000, 33615096361651403000000, 27645570880379949000000),
   (33555287853835239000, 33615096361808794000000, 38464570360484696000000, 27645570880599035000000),
   (63369534654828083000, 22735638687752835000000, 53039778396606752000000, 856896690510557980000),
   (63369534654789009000, 53039778396647430000000, 23367686225072859000000, 856896690513556100000),
   (63369534655030124000, 23367686225047396000000, 22735638687684148000000, 856896690519620520000),
   (136816631991585000000, 37618181369129422000000, 47308239457860812000000, 7236155120451863400000),
   (136816631990721970000, 47308239457842877000000, 7837424052573174800000, 7236155120465578800000),
   (136816631989389770000, 7837424052530432600000, 37618181369319237000000, 7236155120490013500000),
   (33972253178854466000, 35085999644596794000000, 55221821043452890000000, 493132522606721120000),
   (33972253179834872000, 55221821043427333000000, 9199046789365572500000, 493132522642730510000),
   (33972253180672440000, 9199046789304384000000, 35085999644508153000000, 493132522695209630000),
   (63487901990767314000, 1341116464697115300000, 66129820367822356000000, 9601282934079273500000),
   (63487901991223753000, 66129820367832304000000, 22927780233386774000000, 9601282934065741300000),
   (63487901991035134000, 22927780233499728000000, 1341116464707559100000, 9601282934041856200000),
   (28962346741146953000, 83438389057758788000000, 2228963644433851200000, 12428033912177859000000),
   (28962346741212363000, 2228963644438776100000, 1904613385629663800000, 12428033912088392000000),
   (28962346741429800000, 1904613385630605000000, 83438389057593998000000, 12428033912336890000000),
   (65831086309692006000, 26125966949594820000000, 766750793953513420000, 43044133981908456000000),
   (65831086310302585000, 766750793968278350000, 30063148274454637000000, 43044133981972510000000),
   (65831086309779327000, 30063148274476842000000, 26125966949521728000000, 43044133982028482000000),
   (174438323903162970000, 6230404677908082900000, 21600654434562200000000, 21451162810888516000000),
   (174438323901998350000, 21600654434621916000000, 50717778076467657000000, 21451162811032870000000),
   (174438323902718390000, 50717778076517872000000, 6230404677880929700000, 21451162810991570000000),
   (90406821644326636000, 47392585491525713000000, 39429915689815509000000, 11453359412867868000000),
   (90406821644561399000, 39429915690011097000000, 1724139405791852400000, 11453359412850905000000),
   (90406821644849883000, 1724139405793873400000, 47392585491461925000000, 11453359412891567000000),
   (26235085677843900000, 7968733056157800700000, 1883099256402134800000, 88191632746650905000000),
   (26235085677183637000, 1883099256369904700000, 1956534940768599200000, 88191632746880555000000),
   (26235085678062042000, 1956534940798916300000, 7968733056254268000000, 88191632746542514000000),
   (51192728258113831000, 9857704079958504200000, 1974995134615208100000, 7586181203295679100000),
   (51192728258074062000, 1974995134613921300000, 80581119582262761000000, 7586181203231071000000),
   (51192728258044713000, 80581119582197847000000, 9857704079908979900000, 7586181203272895900000),
   (25173054908368778000, 77099002292628060000000, 1952291262766597800000, 1015620879258840300000),
   (25173054908493407000, 1952291262769851500000, 19933085565366751000000, 1015620879265941500000),
   (25173054908524166000, 19933085565342362000000, 77099002292621976000000, 1015620879270476300000),
   (250786570237870920000, 45264887199536130000000, 17834349061354576000000, 21415536427038953000000),
   (250786570237946940000, 17834349061310426000000, 15485227311971955000000, 21415536427178963000000),
   (250786570238694700000, 15485227312058689000000, 45264887199480769000000, 21415536427096479000000),
   (95454363063129000000, 4075932674082385900000, 4604965750936916600000, 51632276820884782000000),
   (95454363062002926000, 4604965750902218600000, 39686824754176542000000, 51632276820908285000000),
   (95454363062688998000, 39686824754112954000000, 4075932674062079900000, 51632276820926726000000),
   (167390023674490650000, 20566325305419961000000, 5411126130896661000000, 20611451727047225000000),
   (167390023675841760000, 5411126130928797800000, 53411096836574756000000, 20611451726976579000000),
   (167390023675794750000, 53411096836623129000000, 20566325305406297000000, 20611451727070371000000),
   (91016488188181907000, 22353314623667850000000, 65021009791394768000000, 2642159417499217000000),
   (91016488187413988000, 65021009791527107000000, 9983516167429845600000, 2642159417490705000000),
   (91016488186364632000, 9983516167455440400000, 22353314623542364000000, 2642159417479929300000),
   (122491690704114570000, 7136509125209904200000, 7714531472977045900000, 65825287968653601000000),
   (122491690703488250000, 7714531472941312000000, 19323671432825346000000, 65825287969072588000000),
   (122491690703484340000, 19323671432918330000000, 7136509125118274700000, 65825287968999047000000),
   (68021259010238029000, 70615325459019962000000, 1940675068596614500000, 7543662479225510300000),
   (68021259010205503000, 1940675068598682700000, 19900336993117773000000, 7543662479224164100000),
   (68021259010928525000, 19900336993159873000000, 70615325458972422000000, 7543662479267580800000),
   (60400342404496861000, 78776789862437691000000, 9409500064304093800000, 1931078849337176900000),
   (60400342404593734000, 9409500064289476300000, 9882631223940271900000, 1931078849337482900000),
   (60400342404584009000, 9882631223971029300000, 78776789862415308000000, 1931078849337421900000),
   (32793268910110318000, 76155505576095084000000, 20392319120066632000000, 1440053742036037600000),
   (32793268910043678000, 20392319120023580000000, 2012121561803051400000, 1440053742030221300000),
   (32793268910045797000, 2012121561804531400000, 76155505576107974000000, 1440053742029731700000),
   (191279023267427580000, 35026145151799376000000, 4637577761701103300000, 24123871535757513000000),
   (191279023268290240000, 4637577761704330500000, 36212405550663512000000, 24123871535784844000000),
   (191279023267535440000, 36212405550780119000000, 35026145151815025000000, 24123871535740932000000),
   (160302645492624340000, 16100456561349916000000, 3830546711004513500000, 38636881567317050000000),
   (160302645491983730000, 3830546710979195600000, 41432115160378902000000, 38636881567304004000000),
   (160302645492197970000, 41432115160271393000000, 16100456561387297000000, 38636881567332110000000),
   (245029757423239530000, 9704125425919998800000, 28515106751575831000000, 36398508958365577000000),
   (245029757423934240000, 28515106751538383000000, 25382258864258966000000, 36398508958245185000000),
   (245029757424628960000, 25382258864237867000000, 9704125425935217200000, 36398508958336301000000),
   (80765546993278117000, 1877419874738000100000, 10144050962237768000000, 18430495314928266000000),
   (80765546994332590000, 10144050962235554000000, 69548033848056789000000, 18430495314955578000000),
   (80765546994098533000, 69548033848057755000000, 1877419874750535500000, 18430495314936840000000),
   (82183513576715688000, 1823203771688221300000, 67569492766879657000000, 21028448189471335000000),
   (82183513576064441000, 67569492766944139000000, 9578855271908903700000, 21028448189462956000000),
   (82183513576009634000, 9578855271960039200000, 1823203771678116200000, 21028448189458029000000),
   (57739324079458386000, 820980056996960420000, 29354885057775287000000, 60062135146688778000000),
   (57739324079175008000, 29354885057703356000000, 9761999738538337800000, 60062135146769913000000),
   (57739324079346659000, 9761999738502115400000, 820980056996783310000, 60062135146692819000000),
   (220492904019759050000, 20767708028302503000000, 50354454726257147000000, 7908151868236305800000),
   (220492904019695430000, 50354454726258513000000, 20969685377178660000000, 7908151868224302900000),
   (220492904020849760000, 20969685377192271000000, 20767708028259280000000, 7908151868295461300000),
   (47251374410969778000, 57834473542716813000000, 38230094649186747000000, 2255542412122691800000),
   (47251374410753761000, 38230094649173052000000, 1679889395968459100000, 2255542412116627200000),
   (47251374410967831000, 1679889395970693400000, 57834473542727471000000, 2255542412126672300000),
   (43682384903406156000, 84790544759942454000000, 1932237274817633100000, 5638385444701342300000),
   (43682384903025732000, 1932237274818322800000, 7638832520527932800000, 5638385444735512200000),
   (43682384903561897000, 7638832520496070800000, 84790544760031272000000, 5638385444661967600000),
   (52397375957974313000, 11548607976972973000000, 11145515833851258000000, 76275640927430510000000),
   (52397375956420803000, 11145515833869718000000, 1030235261682535500000, 76275640927434807000000),
   (52397375957133211000, 1030235261707017200000, 11548607977007068000000, 76275640927402044000000),
   (152176985549028550000, 2946035672919269900000, 17754788331360977000000, 40302415079961385000000),
   (152176985548511290000, 17754788331433513000000, 38996760915640377000000, 40302415080009524000000),
   (152176985548926020000, 38996760915675660000000, 2946035672918445600000, 40302415080032356000000),
   (154999254095988820000, 19552219375788615000000, 3822218952882872100000, 56285520722154647000000),
   (154999254095940750000, 3822218952910477800000, 20340040949150365000000, 56285520722145765000000),
   (154999254096107980000, 20340040949159993000000, 19552219375769733000000, 56285520722145344000000),
   (51342740759962387000, 58019576240133575000000, 1748287896096795100000, 2304572711565234400000),
   (51342740759676906000, 1748287896089842400000, 37927563152224414000000, 2304572711563031600000),
   (51342740759829984000, 37927563152201488000000, 58019576240141069000000, 2304572711563276600000),
   (37954037806018628000, 9120718428587573600000, 411013141124851040000, 39899049286349325000000),
   (37954037806408415000, 411013141151741690000, 50569219143916833000000, 39899049286503574000000),
   (37954037806870334000, 50569219143833621000000, 9120718428557467200000, 39899049286447119000000),
   (5104037863543028000, 478884476429825880000, 95265919105842545000000, 3329961033063372900000),
   (5104037863420362700, 95265919105902686000000, 925235384642680850000, 3329961033024121000000),
   (5104037863193469700, 925235384606450280000, 478884476393087990000, 3329961033004278500000),
   (157445661700822180000, 38598018918754795000000, 39199335018389064000000, 3060828252764566000000),
   (157445661700818640000, 39199335018335713000000, 19141817810078371000000, 3060828252772343800000),
   (157445661701096720000, 19141817810099193000000, 38598018918692173000000, 3060828252764076500000),
   (167926569142850110000, 54793562618520197000000, 6794709903263551600000, 30361359236494129000000),
   (167926569142439290000, 6794709903225486200000, 8050368241686026200000, 30361359236500562000000),
   (167926569143160170000, 8050368241747671300000, 54793562618495240000000, 30361359236453539000000),
   (298344565801780210000, 15380603608032287000000, 33229608338548672000000, 16443270977701405000000),
   (298344565801923410000, 33229608338574895000000, 34946517075681627000000, 16443270977720448000000),
   (298344565801934030000, 34946517075658023000000, 15380603608034293000000, 16443270977711386000000),
   (167642837131837270000, 68014691776350766000000, 10151715917024429000000, 11627248810442477000000),
   (167642837131831980000, 10151715916997768000000, 10206343496184400000000, 11627248810455031000000),
   (167642837131996890000, 10206343496165496000000, 68014691776366409000000, 11627248810426985000000),
   (51583716490032918000, 560141769488318230000, 10403477450915695000000, 60294133196574395000000),
   (51583716489677777000, 10403477450946137000000, 28742247582968500000000, 60294133196614752000000),
   (51583716489362057000, 28742247583037528000000, 560141769466376840000, 60294133196592459000000),
   (47807585051956570000, 2206929415866940000000, 21294253714595562000000, 74370742105696541000000),
   (47807585051857571000, 21294253714467620000000, 2128074763837070600000, 74370742105824594000000),
   (47807585052433153000, 2128074763856243100000, 2206929415888944000000, 74370742106014176000000),
   (6442538948628815900, 92329996515747537000000, 1327553194082919900000, 201005864911615480000),
   (6442538948864299200, 1327553194070762800000, 6141444425278519400000, 201005864980996220000),
   (6442538948289386100, 6141444425249769500000, 92329996515854440000000, 201005864838743610000),
   (37611053899940948000, 323980932956966820000, 8400887661431676000000, 38629615027093683000000),
   (37611053901267128000, 8400887661498045200000, 52645516378427148000000, 38629615027055958000000),
   (37611053900670860000, 52645516378484658000000, 323980932993700450000, 38629615027122094000000),
   (43444375929611081000, 51564396354686004000000, 23494061248840276000000, 24749127838673157000000),
   (43444375930333387000, 23494061248997605000000, 192414557825688890000, 24749127838584020000000),
   (43444375930493719000, 192414557823031880000, 51564396354539177000000, 24749127838747612000000),
   (248158845024539900000, 30291811932930135000000, 30291811932937640000000, 9124564201234262900000),
   (2210507859257199800, 685770368096015780000, 685770368146077550000, 97942688895784069000000),
   (270321173084176560000, 16588752025509207000000, 16588752025504508000000, 50233743923516794000000),
   (79328723256770614000, 7781592316882597600000, 7781592316817379000000, 76655223049187848000000),
   (47932547560531794000, 33172395261500148000000, 33172395261398968000000, 482814215598714560000),
   (317815971815884990000, 24322103194151506000000, 24322103194167013000000, 27033690417470868000000)]

end Verif
