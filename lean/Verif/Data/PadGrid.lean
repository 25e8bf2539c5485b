/-! # Part of `src/attpc_engine/detector/data/pad_grid.npz`

The cells `grid[10 * i, 10 * j]` for `i, j = 0 … 558`, one number per `i`. The cells of a row are given
as runs of equal cells, eight decimal digits per run, the last run first: five digits for the pad
(99999 for -1) and three digits for the length of the run. Written by `tools/extract_pad_data.py`. -/

namespace Verif.Data

/-- `pad_grid.npz`: `grid[0, 0], grid[0, 10], …, grid[0, 5580]`. -/
def padGrid0 : Nat :=
  99999559

/-- `pad_grid.npz`: `grid[10, 0], grid[10, 10], …, grid[10, 5580]`. -/
def padGrid1 : Nat :=
  99999559

/-- `pad_grid.npz`: `grid[20, 0], grid[20, 10], …, grid[20, 5580]`. -/
def padGrid2 : Nat :=
  99999559

/-- `pad_grid.npz`: `grid[30, 0], grid[30, 10], …, grid[30, 5580]`. -/
def padGrid3 : Nat :=
  99999559

/-- `pad_grid.npz`: `grid[40, 0], grid[40, 10], …, grid[40, 5580]`. -/
def padGrid4 : Nat :=
  99999559

/-- `pad_grid.npz`: `grid[50, 0], grid[50, 10], …, grid[50, 5580]`. -/
def padGrid5 : Nat :=
  99999559

/-- `pad_grid.npz`: `grid[60, 0], grid[60, 10], …, grid[60, 5580]`. -/
def padGrid6 : Nat :=
  9999924500882001999990140059400199999001003000019999901400000001999990010512000199999014054200019999900105714001999990140600200199999247

/-- `pad_grid.npz`: `grid[70, 0], grid[70, 10], …, grid[70, 5580]`. -/
def padGrid7 : Nat :=
  9999924500882003999990100059400399999001003000039999901000000003999990010512000399999010054200039999900105714003999990100600200399999247

/-- `pad_grid.npz`: `grid[80, 0], grid[80, 10], …, grid[80, 5580]`. -/
def padGrid8 : Nat :=
  9999924500882004999990080059400499999001003000049999900800000004999990010512000499999008054200049999900105714004999990080600200499999247

/-- `pad_grid.npz`: `grid[90, 0], grid[90, 10], …, grid[90, 5580]`. -/
def padGrid9 : Nat :=
  9999924500882006999990040059400699999001003000069999900400000006999990010512000699999004054200069999900105714006999990040600200699999247

/-- `pad_grid.npz`: `grid[100, 0], grid[100, 10], …, grid[100, 5580]`. -/
def padGrid10 : Nat :=
  99999245008820080059400899999001003000080000000899999001051200080542000899999001057140080600200899999247

/-- `pad_grid.npz`: `grid[110, 0], grid[110, 10], …, grid[110, 5580]`. -/
def padGrid11 : Nat :=
  999992170196800201706002999990130143800201164002999990070088200600883002005950020059400699999001003000060030100200001002000000069999900105120006051210020542100205420006999990010571400605715002060030020600200699999007062840020655800299999013068260020708800299999219

/-- `pad_grid.npz`: `grid[120, 0], grid[120, 10], …, grid[120, 5580]`. -/
def padGrid12 : Nat :=
  999992160196800301706003999990110143800301164003999990060088200500883003005950030059400599999001003000050030100300001003000000059999900105120005051210030542100305420005999990010571400505715003060030030600200599999006062840030655800399999011068260030708800399999218

/-- `pad_grid.npz`: `grid[130, 0], grid[130, 10], …, grid[130, 5580]`. -/
def padGrid13 : Nat :=
  999992140196800501706005999990070143800501164005999990040088200300883005005950050059400399999001003000030030100500001005000000039999900105120003051210050542100505420003999990010571400305715005060030050600200399999004062840050655800599999007068260050708800599999216

/-- `pad_grid.npz`: `grid[140, 0], grid[140, 10], …, grid[140, 5580]`. -/
def padGrid14 : Nat :=
  999992120196800701706007999990030143800701164007999990020088200100883007005950070059400199999001003000010030100700001007000000019999900105120001051210070542100705420001999990010571400105715007060030070600200199999002062840070655800799999003068260070708800799999214

/-- `pad_grid.npz`: `grid[150, 0], grid[150, 10], …, grid[150, 5580]`. -/
def padGrid15 : Nat :=
  99999211019680080170600899999001014380080116400899999001008830080059500899999001003010080000100899999001051210080542100899999001057150080600300899999001062840080655800899999001068260080708800899999213

/-- `pad_grid.npz`: `grid[160, 0], grid[160, 10], …, grid[160, 5580]`. -/
def padGrid16 : Nat :=
  99999194024720019999901402224001999990010196900101968007017060070170700199999001014390010143800701164007011650019999900100884001008830070059500700596001999990010030200100301007000010070000200199999001051220010512100705421007054220019999900105716001057150070600300706004001999990010628500106284007065580070655900199999001068270010682600707088007070890019999900107344001999990140759200199999196

/-- `pad_grid.npz`: `grid[170, 0], grid[170, 10], …, grid[170, 5580]`. -/
def padGrid17 : Nat :=
  99999194024720039999901002224003999990010196900301968005017060050170700399999001014390030143800501164005011650039999900100884003008830050059500500596003999990010030200300301005000010050000200399999001051220030512100505421005054220039999900105716003057150050600300506004003999990010628500306284005065580050655900399999001068270030682600507088005070890039999900107344003999990100759200399999196

/-- `pad_grid.npz`: `grid[180, 0], grid[180, 10], …, grid[180, 5580]`. -/
def padGrid18 : Nat :=
  99999194024720059999900602224005999990010196900501968003017060030170700599999001014390050143800301164003011650059999900100884005008830030059500300596005999990010030200500301003000010030000200599999001051220050512100305421003054220059999900105716005057150030600300306004005999990010628500506284003065580030655900599999001068270050682600307088003070890059999900107344005999990060759200599999196

/-- `pad_grid.npz`: `grid[190, 0], grid[190, 10], …, grid[190, 5580]`. -/
def padGrid19 : Nat :=
  9999919402472006999990040222400699999001019690069999900101968001017060019999900101707006999990010143900699999001014380010116400199999001011650069999900100884006999990010088300100595001999990010059600699999001003020069999900100301001000010019999900100002006999990010512200699999001051210010542100199999001054220069999900105716006999990010571500106003001999990010600400699999001062850069999900106284001065580019999900106559006999990010682700699999001068260010708800199999001070890069999900107344006999990040759200699999196

/-- `pad_grid.npz`: `grid[200, 0], grid[200, 10], …, grid[200, 5580]`. -/
def padGrid20 : Nat :=
  99999194024720080222400899999001019690080170700899999001014390080116500899999001008840080059600899999001003020080000200899999001051220080542200899999001057160080600400899999001062850080655900899999001068270080708900899999001073440080759200899999196

/-- `pad_grid.npz`: `grid[210, 0], grid[210, 10], …, grid[210, 5580]`. -/
def padGrid21 : Nat :=
  99999185027140029999900702472006024730020222500202224006999990010196900601970002017080020170700699999001014390060144000201166002011650069999900100884006008850020059700200596006999990010030200600303002000030020000200699999001051220060512300205423002054220069999900105716006057170020600500206004006999990010628500606286002065600020655900699999001068270060682800207090002070890069999900107344006073450020759300207592006999990070783400299999187

/-- `pad_grid.npz`: `grid[220, 0], grid[220, 10], …, grid[220, 5580]`. -/
def padGrid22 : Nat :=
  99999185027140049999900502472004024730040222500402224004999990010196900401970004017080040170700499999001014390040144000401166004011650049999900100884004008850040059700400596004999990010030200400303004000030040000200499999001051220040512300405423004054220049999900105716004057170040600500406004004999990010628500406286004065600040655900499999001068270040682800407090004070890049999900107344004073450040759300407592004999990050783400499999187

/-- `pad_grid.npz`: `grid[230, 0], grid[230, 10], …, grid[230, 5580]`. -/
def padGrid23 : Nat :=
  999991850271400599999004024720029999900102473005022250059999900102224002999990010196900299999001019700050170800599999001017070029999900101439002999990010144000501166005999990010116500299999001008840029999900100885005005970059999900100596002999990010030200299999001003030050000300599999001000020029999900105122002999990010512300505423005999990010542200299999001057160029999900105717005060050059999900106004002999990010628500299999001062860050656000599999001065590029999900106827002999990010682800507090005999990010708900299999001073440029999900107345005075930059999900107592002999990040783400599999187

/-- `pad_grid.npz`: `grid[240, 0], grid[240, 10], …, grid[240, 5580]`. -/
def padGrid24 : Nat :=
  99999185027140079999900202472001024730070222500702224001999990010196900101970007017080070170700199999001014390010144000701166007011650019999900100884001008850070059700700596001999990010030200100303007000030070000200199999001051220010512300705423007054220019999900105716001057170070600500706004001999990010628500106286007065600070655900199999001068270010682800707090007070890019999900107344001073450070759300707592001999990020783400799999187

/-- `pad_grid.npz`: `grid[250, 0], grid[250, 10], …, grid[250, 5580]`. -/
def padGrid25 : Nat :=
  9999918502714008999990010247300802225008999990010197000801708008999990010144000801166008999990010088500800597008999990010030300800003008999990010512300805423008999990010571700806005008999990010628600806560008999990010682800807090008999990010734500807593008999990010783400899999187

/-- `pad_grid.npz`: `grid[260, 0], grid[260, 10], …, grid[260, 5580]`. -/
def padGrid26 : Nat :=
  9999917403174002999990010294800299999006027140060271500299999001024740020247300602225006022260029999900101971002019700060170800601709002999990010144100201440006011660060116700299999001008860020088500600597006005980029999900100304002003030060000300600004002999990010512400205123006054230060542400299999001057180020571700606005006060060029999900106287002062860060656000606561002999990010682900206828006070900060709100299999001073460020734500607593006075940029999900107835002078340069999900608068002999990010829400299999176

/-- `pad_grid.npz`: `grid[270, 0], grid[270, 10], …, grid[270, 5580]`. -/
def padGrid27 : Nat :=
  9999917303174003999990010294800399999005027140050271500399999001024740030247300502225005022260039999900101971003019700050170800501709003999990010144100301440005011660050116700399999001008860030088500500597005005980039999900100304003003030050000300500004003999990010512400305123005054230050542400399999001057180030571700506005005060060039999900106287003062860050656000506561003999990010682900306828005070900050709100399999001073460030734500507593005075940039999900107835003078340059999900508068003999990010829400399999175

/-- `pad_grid.npz`: `grid[280, 0], grid[280, 10], …, grid[280, 5580]`. -/
def padGrid28 : Nat :=
  9999917103174005999990010294800599999003027140030271500599999001024740050247300302225003022260059999900101971005019700030170800301709005999990010144100501440003011660030116700599999001008860050088500300597003005980059999900100304005003030030000300300004005999990010512400505123003054230030542400599999001057180050571700306005003060060059999900106287005062860030656000306561005999990010682900506828003070900030709100599999001073460050734500307593003075940059999900107835005078340039999900308068005999990010829400599999173

/-- `pad_grid.npz`: `grid[290, 0], grid[290, 10], …, grid[290, 5580]`. -/
def padGrid29 : Nat :=
  9999916903174007999990010294800799999001027140010271500799999001024740070247300102225001022260079999900101971007019700010170800101709007999990010144100701440001011660010116700799999001008860070088500100597001005980079999900100304007003030010000300100004007999990010512400705123001054230010542400799999001057180070571700106005001060060079999900106287007062860010656000106561007999990010682900706828001070900010709100799999001073460070734500107593001075940079999900107835007078340019999900108068007999990010829400799999171

/-- `pad_grid.npz`: `grid[300, 0], grid[300, 10], …, grid[300, 5580]`. -/
def padGrid30 : Nat :=
  9999916903174007999990010294800799999002027150079999900102474007999990020222600799999001019710079999900201709007999990010144100799999002011670079999900100886007999990020059800799999001003040079999900200004007999990010512400799999002054240079999900105718007999990020600600799999001062870079999900206561007999990010682900799999002070910079999900107346007999990020759400799999001078350079999900208068007999990010829400799999171

/-- `pad_grid.npz`: `grid[310, 0], grid[310, 10], …, grid[310, 5580]`. -/
def padGrid31 : Nat :=
  999991660339400203175002031740069999900102948006029490020271600202715006999990010247400602475002022270020222600699999001019710060197200201710002017090069999900101441006014420020116800201167006999990010088600600887002005990020059800699999001003040060030500200005002000040069999900105124006051250020542500205424006999990010571800605719002060070020600600699999001062870060628800206562002065610069999900106829006068300020709200207091006999990010734600607347002075950020759400699999001078350060783600208069002080680069999900108294006082950020851400299999168

/-- `pad_grid.npz`: `grid[320, 0], grid[320, 10], …, grid[320, 5580]`. -/
def padGrid32 : Nat :=
  999991640339400403175004031740049999900102948004029490040271600402715004999990010247400402475004022270040222600499999001019710040197200401710004017090049999900101441004014420040116800401167004999990010088600400887004005990040059800499999001003040040030500400005004000040049999900105124004051250040542500405424004999990010571800405719004060070040600600499999001062870040628800406562004065610049999900106829004068300040709200407091004999990010734600407347004075950040759400499999001078350040783600408069004080680049999900108294004082950040851400499999166

/-- `pad_grid.npz`: `grid[330, 0], grid[330, 10], …, grid[330, 5580]`. -/
def padGrid33 : Nat :=
  999991620339400603175006031740029999900102948002029490060271600602715002999990010247400202475006022270060222600299999001019710020197200601710006017090029999900101441002014420060116800601167002999990010088600200887006005990060059800299999001003040020030500600005006000040029999900105124002051250060542500605424002999990010571800205719006060070060600600299999001062870020628800606562006065610029999900106829002068300060709200607091002999990010734600207347006075950060759400299999001078350020783600608069006080680029999900108294002082950060851400699999164

/-- `pad_grid.npz`: `grid[340, 0], grid[340, 10], …, grid[340, 5580]`. -/
def padGrid34 : Nat :=
  99999161033940070317500799999003029490070271600799999003024750070222700799999003019720070171000799999003014420070116800799999003008870070059900799999003003050070000500799999003051250070542500799999003057190070600700799999003062880070656200799999003068300070709200799999003073470070759500799999003078360070806900799999003082950070851400799999163

/-- `pad_grid.npz`: `grid[350, 0], grid[350, 10], …, grid[350, 5580]`. -/
def padGrid35 : Nat :=
  99999160033940080317500899999001029490080271600899999001024750080222700899999001019720080171000899999001014420080116800899999001008870080059900899999001003050080000500899999001051250080542500899999001057190080600700899999001062880080656200899999001068300080709200899999001073470080759500899999001078360080806900899999001082950080851400899999162

/-- `pad_grid.npz`: `grid[360, 0], grid[360, 10], …, grid[360, 5580]`. -/
def padGrid36 : Nat :=
  999991570360600299999001033950020339400603175006031760029999900102950002029490060271600602717002999990010247600202475006022270060222800299999001019730020197200601710006017110029999900101443002014420060116800601169002999990010088800200887006005990060060000299999001003060020030500600005006000060029999900105126002051250060542500605426002999990010572000205719006060070060600800299999001062890020628800606562006065630029999900106831002068300060709200607093002999990010734800207347006075950060759600299999001078370020783600608069006080700029999900108296002082950060851400608515002999990010872600299999159

/-- `pad_grid.npz`: `grid[370, 0], grid[370, 10], …, grid[370, 5580]`. -/
def padGrid37 : Nat :=
  999991550360600499999001033950040339400403175004031760049999900102950004029490040271600402717004999990010247600402475004022270040222800499999001019730040197200401710004017110049999900101443004014420040116800401169004999990010088800400887004005990040060000499999001003060040030500400005004000060049999900105126004051250040542500405426004999990010572000405719004060070040600800499999001062890040628800406562004065630049999900106831004068300040709200407093004999990010734800407347004075950040759600499999001078370040783600408069004080700049999900108296004082950040851400408515004999990010872600499999157

/-- `pad_grid.npz`: `grid[380, 0], grid[380, 10], …, grid[380, 5580]`. -/
def padGrid38 : Nat :=
  99999154036060059999900103395005033940030317500299999001031760059999900102950005029490030271600299999001027170059999900102476005024750030222700299999001022280059999900101973005999990010197200201710002999990010171100599999001014430059999900101442002011680029999900101169005999990010088800599999001008870020059900299999001006000059999900100306005999990010030500200005002999990010000600599999001051260059999900105125002054250029999900105426005999990010572000599999001057190020600700299999001060080059999900106289005999990010628800206562002999990010656300599999001068310059999900106830002070920029999900107093005999990010734800599999001073470020759500307596005999990010783700599999001078360020806900308070005999990010829600599999001082950020851400308515005999990010872600599999156

/-- `pad_grid.npz`: `grid[390, 0], grid[390, 10], …, grid[390, 5580]`. -/
def padGrid39 : Nat :=
  999991520360600799999001033950070339400103175001031760079999900102950007029490010271600102717007999990010247600702475001022270010222800799999001019730070197200101710001017110079999900101443007014420010116800101169007999990010088800700887001005990010060000799999001003060070030500100005001000060079999900105126007051250010542500105426007999990010572000705719001060070010600800799999001062890070628800106562001065630079999900106831007068300010709200107093007999990010734800707347001075950010759600799999001078370070783600108069001080700079999900108296007082950010851400108515007999990010872600799999154

/-- `pad_grid.npz`: `grid[400, 0], grid[400, 10], …, grid[400, 5580]`. -/
def padGrid40 : Nat :=
  99999150038100010360700103606007999990010339500703396001031770010317600799999001029500070295100102718001027170079999900102476007024770010222900102228007999990010197300701974001017120010171100799999001014430070144400101170001011690079999900100888007008890010060100100600007999990010030600700307001000070010000600799999001051260070512700105427001054260079999900105720007057210010600900106008007999990010628900706290001065640010656300799999001068310070683200107094001070930079999900107348007073490010759700107596007999990010783700707838001080710010807000799999001082960070829700108516001085150079999900108726007087270010893000199999152

/-- `pad_grid.npz`: `grid[410, 0], grid[410, 10], …, grid[410, 5580]`. -/
def padGrid41 : Nat :=
  999991480381000303607002999990010360600599999001033950050339600303177002999990010317600599999001029500050295100302718002999990010271700599999001024760050247700302229002999990010222800599999001019730050197400301712002999990010171100599999001014430050144400301170002999990010116900599999001008880050088900300601002999990010060000599999001003060050030700300007003000060059999900105126005051270030542700305426005999990010572000599999001057210020600900306008005999990010628900599999001062900020656400306563005999990010683100599999001068320020709400307093005999990010734800599999001073490020759700307596005999990010783700599999001078380020807100308070005999990010829600599999001082970020851600308515005999990010872600599999001087270020893000399999150

/-- `pad_grid.npz`: `grid[420, 0], grid[420, 10], …, grid[420, 5580]`. -/
def padGrid42 : Nat :=
  99999147038100040360700403606004999990010339500403396004031770040317600499999001029500040295100402718004027170049999900102476004024770040222900402228004999990010197300401974004017120040171100499999001014430040144400401170004011690049999900100888004008890040060100400600004999990010030600400307004000070040000600499999001051260040512700405427004054260049999900105720004057210040600900406008004999990010628900406290004065640040656300499999001068310040683200407094004070930049999900107348004073490040759700407596004999990010783700407838004080710040807000499999001082960040829700408516004085150049999900108726004087270040893000499999149

/-- `pad_grid.npz`: `grid[430, 0], grid[430, 10], …, grid[430, 5580]`. -/
def padGrid43 : Nat :=
  99999145038100060360700603606002999990010339500203396006031770060317600299999001029500020295100602718006027170029999900102476002024770060222900602228002999990010197300201974006017120060171100299999001014430020144400601170006011690029999900100888002008890060060100600600002999990010030600200307006000070060000600299999001051260020512700605427006054260029999900105720002057210060600900606008002999990010628900206290006065640060656300299999001068310020683200607094006070930029999900107348002073490060759700607596002999990010783700207838006080710060807000299999001082960020829700608516006085150029999900108726002087270060893000699999147

/-- `pad_grid.npz`: `grid[440, 0], grid[440, 10], …, grid[440, 5580]`. -/
def padGrid44 : Nat :=
  99999143038100080360700899999001033960080317700899999001029510080271800899999001024770080222900899999001019740080171200899999001014440080117000899999001008890080060100899999001003070080000700899999001051270080542700899999001057210080600900899999001062900080656400899999001068320080709400899999001073490080759700899999001078380080807100899999001082970080851600899999001087270080893000899999145

/-- `pad_grid.npz`: `grid[450, 0], grid[450, 10], …, grid[450, 5580]`. -/
def padGrid45 : Nat :=
  99999144038100070360700799999003033960070317700799999003029510070271800799999003024770070222900799999003019740070171200799999003014440070117000799999003008890070060100799999003003070070000700799999003051270070542700799999003057210070600900799999003062900070656400799999003068320070709400799999003073490070759700799999003078380070807100799999003082970070851600799999003087270070893000799999146

/-- `pad_grid.npz`: `grid[460, 0], grid[460, 10], …, grid[460, 5580]`. -/
def padGrid46 : Nat :=
  99999140040060029999900103811002038100060360700603608002999990010339700203396006031770060317800299999001029520020295100602718006027190029999900102478002024770060222900602230002999990010197500201974006017120060171300299999001014450020144400601170006011710029999900100890002008890060060100600602002999990010030800200307006000070060000800299999001051280020512700605427006054280029999900105722002057210060600900606010002999990010629100206290006065640060656500299999001068330020683200607094006070950029999900107350002073490060759700607598002999990010783900207838006080710060807200299999001082980020829700608516006085170029999900108728002087270060893000608931002999990010912600299999142

/-- `pad_grid.npz`: `grid[470, 0], grid[470, 10], …, grid[470, 5580]`. -/
def padGrid47 : Nat :=
  99999138040060049999900103811004038100040360700403608004999990010339700403396004031770040317800499999001029520040295100402718004027190049999900102478004024770040222900402230004999990010197500401974004017120040171300499999001014450040144400401170004011710049999900100890004008890040060100400602004999990010030800400307004000070040000800499999001051280040512700405427004054280049999900105722004057210040600900406010004999990010629100406290004065640040656500499999001068330040683200407094004070950049999900107350004073490040759700407598004999990010783900407838004080710040807200499999001082980040829700408516004085170049999900108728004087270040893000408931004999990010912600499999140

/-- `pad_grid.npz`: `grid[480, 0], grid[480, 10], …, grid[480, 5580]`. -/
def padGrid48 : Nat :=
  99999136040060069999900103811006038100020360700203608006999990010339700603396002031770020317800699999001029520060295100202718002027190069999900102478006024770020222900202230006999990010197500601974002017120020171300699999001014450060144400201170002011710069999900100890006008890020060100200602006999990010030800600307002000070020000800699999001051280060512700205427002054280069999900105722006057210020600900206010006999990010629100606290002065640020656500699999001068330060683200207094002070950069999900107350006073490020759700207598006999990010783900607838002080710020807200699999001082980060829700208516002085170069999900108728006087270020893000208931006999990010912600699999138

/-- `pad_grid.npz`: `grid[490, 0], grid[490, 10], …, grid[490, 5580]`. -/
def padGrid49 : Nat :=
  999991350400600799999001038110079999900203608007999990010339700799999002031780079999900102952007999990020271900799999001024780079999900202230007999990010197500799999002017130079999900101445007999990020117100799999001008900079999900200602007999990010030800799999002000080079999900105128007999990020542800799999001057220079999900206010007999990010629100799999002065650079999900106833007999990020709500799999001073500079999900207598007999990010783900799999002080720079999900108298007999990020851700799999001087280079999900208931007999990010912600799999137

/-- `pad_grid.npz`: `grid[500, 0], grid[500, 10], …, grid[500, 5580]`. -/
def padGrid50 : Nat :=
  9999913304101001040070010400600799999001038110070381200103609001036080079999900103397007033980010317900103178007999990010295200702953001027200010271900799999001024780070247900102231001022300079999900101975007019760010171400101713007999990010144500701446001011720010117100799999001008900070089100100603001006020079999900100308007003090010000900100008007999990010512800705129001054290010542800799999001057220070572300106011001060100079999900106291007062920010656600106565007999990010683300706834001070960010709500799999001073500070735100107599001075980079999900107839007078400010807300108072007999990010829800708299001085180010851700799999001087280070872900108932001089310079999900109126007091270010922100199999135

/-- `pad_grid.npz`: `grid[510, 0], grid[510, 10], …, grid[510, 5580]`. -/
def padGrid51 : Nat :=
  9999913104101003040070030400600599999001038110050381200303609003036080059999900103397005033980030317900303178005999990010295200502953003027200030271900599999001024780050247900302231003022300059999900101975005019760030171400301713005999990010144500501446003011720030117100599999001008900050089100300603003006020059999900100308005003090030000900300008005999990010512800505129003054290030542800599999001057220050572300306011003060100059999900106291005062920030656600306565005999990010683300506834003070960030709500599999001073500050735100307599003075980059999900107839005078400030807300308072005999990010829800508299003085180030851700599999001087280050872900308932003089310059999900109126005091270030922100399999133

/-- `pad_grid.npz`: `grid[520, 0], grid[520, 10], …, grid[520, 5580]`. -/
def padGrid52 : Nat :=
  9999912904101005040070050400600399999001038110030381200503609005036080039999900103397003033980050317900503178003999990010295200302953005027200050271900399999001024780030247900502231005022300039999900101975003019760050171400501713003999990010144500301446005011720050117100399999001008900030089100500603005006020039999900100308003003090050000900500008003999990010512800305129005054290050542800399999001057220030572300506011005060100039999900106291003062920050656600506565003999990010683300306834005070960050709500399999001073500030735100507599005075980039999900107839003078400050807300508072003999990010829800308299005085180050851700399999001087280030872900508932005089310039999900109126003091270050922100599999131

/-- `pad_grid.npz`: `grid[530, 0], grid[530, 10], …, grid[530, 5580]`. -/
def padGrid53 : Nat :=
  9999912804101006040070060400600299999001038110019999900103812006036090060360800299999001033970019999900103398006031790060317800299999001029520019999900102953006027200060271900299999001024780020247900602231006022300029999900101975002019760060171400601713002999990010144500201446006011720060117100299999001008900020089100600603006006020029999900100308002003090060000900600008002999990010512800205129006054290060542800299999001057220020572300606011006060100029999900106291002062920060656600606565002999990010683300206834006070960060709500299999001073500020735100607599006075980029999900107839002078400060807300699999001080720019999900108298002082990060851800699999001085170019999900108728002087290060893200699999001089310019999900109126002091270060922100699999130

/-- `pad_grid.npz`: `grid[540, 0], grid[540, 10], …, grid[540, 5580]`. -/
def padGrid54 : Nat :=
  99999126041010080400700899999001038120080360900899999001033980080317900899999001029530080272000899999001024790080223100899999001019760080171400899999001014460080117200899999001008910080060300899999001003090080000900899999001051290080542900899999001057230080601100899999001062920080656600899999001068340080709600899999001073510080759900899999001078400080807300899999001082990080851800899999001087290080893200899999001091270080922100899999128

/-- `pad_grid.npz`: `grid[550, 0], grid[550, 10], …, grid[550, 5580]`. -/
def padGrid55 : Nat :=
  9999912404194001999990010410200104101007040070070400800199999001038130010381200703609007036100019999900103399001033980070317900703180001999990010295400102953007027200070272100199999001024800010247900702231007022320019999900101977001019760070171400701715001999990010144700101446007011720070117300199999001008920010089100700603007006040019999900100310001003090070000900700010001999990010513000105129007054290070543000199999001057240010572300706011007060120019999900106293001062920070656600706567001999990010683500106834007070960070709700199999001073520010735100707599007076000019999900107841001078400070807300708074001999990010830000108299007085180070851900199999001087300010872900708932007089330019999900109128001091270070922100709222001999990010931400199999126

/-- `pad_grid.npz`: `grid[560, 0], grid[560, 10], …, grid[560, 5580]`. -/
def padGrid56 : Nat :=
  999991220419400399999001041020029999900104101005040070050400800399999001038130029999900103812005036090059999900103610002999990010339900299999001033980050317900599999001031800029999900102954002999990010295300502720005999990010272100299999001024800029999900102479005022310059999900102232002999990010197700299999001019760050171400599999001017150029999900101447002999990010144600501172005999990010117300299999001008920029999900100891005006030059999900100604002999990010031000299999001003090050000900599999001000100029999900105130002999990010512900505429005999990010543000299999001057240029999900105723005060110059999900106012002999990010629300299999001062920050656600599999001065670029999900106835002999990010683400507096005999990010709700299999001073520029999900107351005075990059999900107600002999990010784100299999001078400050807300599999001080740029999900108300002999990010829900508518005999990010851900299999001087300029999900108729005089320059999900108933002999990010912800309127005092210059999900109222002999990010931400399999124

/-- `pad_grid.npz`: `grid[570, 0], grid[570, 10], …, grid[570, 5580]`. -/
def padGrid57 : Nat :=
  9999912104194004999990010410200404101004040070040400800499999001038130040381200403609004036100049999900103399004033980040317900403180004999990010295400402953004027200040272100499999001024800040247900402231004022320049999900101977004019760040171400401715004999990010144700401446004011720040117300499999001008920040089100400603004006040049999900100310004003090040000900400010004999990010513000405129004054290040543000499999001057240040572300406011004060120049999900106293004062920040656600406567004999990010683500406834004070960040709700499999001073520040735100407599004076000049999900107841004078400040807300408074004999990010830000408299004085180040851900499999001087300040872900408932004089330049999900109128004091270040922100409222004999990010931400499999123

/-- `pad_grid.npz`: `grid[580, 0], grid[580, 10], …, grid[580, 5580]`. -/
def padGrid58 : Nat :=
  9999911904194006999990010410200604101002040070020400800699999001038130060381200203609002036100069999900103399006033980020317900203180006999990010295400602953002027200020272100699999001024800060247900202231002022320069999900101977006019760020171400201715006999990010144700601446002011720020117300699999001008920060089100200603002006040069999900100310006003090020000900200010006999990010513000605129002054290020543000699999001057240060572300206011002060120069999900106293006062920020656600206567006999990010683500606834002070960020709700699999001073520060735100207599002076000069999900107841006078400020807300208074006999990010830000608299002085180020851900699999001087300060872900208932002089330069999900109128006091270020922100209222006999990010931400699999121

/-- `pad_grid.npz`: `grid[590, 0], grid[590, 10], …, grid[590, 5580]`. -/
def padGrid59 : Nat :=
  9999911704194008999990010410200804008008999990010381300803610008999990010339900803180008999990010295400802721008999990010248000802232008999990010197700801715008999990010144700801173008999990010089200800604008999990010031000800010008999990010513000805430008999990010572400806012008999990010629300806567008999990010683500807097008999990010735200807600008999990010784100808074008999990010830000808519008999990010873000808933008999990010912800809222008999990010931400899999119

/-- `pad_grid.npz`: `grid[600, 0], grid[600, 10], …, grid[600, 5580]`. -/
def padGrid60 : Nat :=
  9999911604285001041950019999900104194006999990010410200699999001041030010400900199999001040080069999900103813006999990010381400103611001999990010361000699999001033990069999900103400001031810019999900103180006999990010295400699999001029550010272200199999001027210069999900102480006999990010248100102233001999990010223200699999001019770069999900101978001017160019999900101715006999990010144700699999001014480010117400199999001011730069999900100892006999990010089300100605001999990010060400699999001003100069999900100311001000110019999900100010006999990010513000699999001051310010543100199999001054300069999900105724006999990010572500106013001999990010601200699999001062930069999900106294001065680019999900106567006999990010683500699999001068360010709800199999001070970069999900107352006999990010735300107601001999990010760000699999001078410069999900107842001080750019999900108074006999990010830000699999001083010010852000199999001085190069999900108730006999990010873100108934001999990010893300699999001091280069999900109129001092230019999900109222006999990010931400699999001093150010940500199999118

/-- `pad_grid.npz`: `grid[610, 0], grid[610, 10], …, grid[610, 5580]`. -/
def padGrid61 : Nat :=
  999991140428500304195003041940059999900104102005041030030400900304008005999990010381300503814003036110030361000599999001033990050340000303181003031800059999900102954005029550030272200302721005999990010248000502481003022330030223200599999001019770050197800301716003017150059999900101447005014480030117400301173005999990010089200500893003006050030060400599999001003100050031100300011003000100059999900105130005051310030543100305430005999990010572400505725003060130030601200599999001062930050629400306568003065670059999900106835005068360030709800307097005999990010735200507353003076010030760000599999001078410050784200308075003080740059999900108300005083010030852000308519005999990010873000508731003089340030893300599999001091280050912900309223003092220059999900109314005093150030940500399999116

/-- `pad_grid.npz`: `grid[620, 0], grid[620, 10], …, grid[620, 5580]`. -/
def padGrid62 : Nat :=
  999991120428500504195005041940039999900104102003041030050400900504008003999990010381300303814005036110050361000399999001033990030340000503181005031800039999900102954003029550050272200502721003999990010248000302481005022330050223200399999001019770030197800501716005017150039999900101447003014480050117400501173003999990010089200300893005006050050060400399999001003100030031100500011005000100039999900105130003051310050543100505430003999990010572400305725005060130050601200399999001062930030629400506568005065670039999900106835003068360050709800507097003999990010735200307353005076010050760000399999001078410030784200508075005080740039999900108300003083010050852000508519003999990010873000308731005089340050893300399999001091280030912900509223005092220039999900109314003093150050940500599999114

/-- `pad_grid.npz`: `grid[630, 0], grid[630, 10], …, grid[630, 5580]`. -/
def padGrid63 : Nat :=
  999991100428500704195007041940019999900104102001041030070400900704008001999990010381300103814007036110070361000199999001033990010340000703181007031800019999900102954001029550070272200702721001999990010248000102481007022330070223200199999001019770010197800701716007017150019999900101447001014480070117400701173001999990010089200100893007006050070060400199999001003100010031100700011007000100019999900105130001051310070543100705430001999990010572400105725007060130070601200199999001062930010629400706568007065670019999900106835001068360070709800707097001999990010735200107353007076010070760000199999001078410010784200708075007080740019999900108300001083010070852000708519001999990010873000108731007089340070893300199999001091280010912900709223007092220019999900109314001093150070940500799999112

/-- `pad_grid.npz`: `grid[640, 0], grid[640, 10], …, grid[640, 5580]`. -/
def padGrid64 : Nat :=
  99999109042850080419500899999001041030080400900899999001038140080361100899999001034000080318100899999001029550080272200899999001024810080223300899999001019780080171600899999001014480080117400899999001008930080060500899999001003110080001100899999001051310080543100899999001057250080601300899999001062940080656800899999001068360080709800899999001073530080760100899999001078420080807500899999001083010080852000899999001087310080893400899999001091290080922300899999001093150080940500899999111

/-- `pad_grid.npz`: `grid[650, 0], grid[650, 10], …, grid[650, 5580]`. -/
def padGrid65 : Nat :=
  9999910904286001042850070419500704196001999990010410400104103007040090070401000199999001038150010381400703611007036120019999900103401001034000070318100703182001999990010295600102955007027220070272300199999001024820010248100702233007022340019999900101979001019780070171600701717001999990010144900101448007011740070117500199999001008940010089300700605007006060019999900100312001003110070001100700012001999990010513200105131007054310070543200199999001057260010572500706013007060140019999900106295001062940070656800706569001999990010683700106836007070980070709900199999001073540010735300707601007076020019999900107843001078420070807500708076001999990010830200108301007085200070852100199999001087320010873100708934007089350019999900109130001091290070922300709224001999990010931600109315007094050070940600199999111

/-- `pad_grid.npz`: `grid[660, 0], grid[660, 10], …, grid[660, 5580]`. -/
def padGrid66 : Nat :=
  9999910904286003042850050419500504196003999990010410400304103005040090050401000399999001038150030381400503611005036120039999900103401003034000050318100503182003999990010295600302955005027220050272300399999001024820030248100502233005022340039999900101979003019780050171600501717003999990010144900301448005011740050117500399999001008940030089300500605005006060039999900100312003003110050001100500012003999990010513200305131005054310050543200399999001057260030572500506013005060140039999900106295003062940050656800506569003999990010683700306836005070980050709900399999001073540030735300507601005076020039999900107843003078420050807500508076003999990010830200308301005085200050852100399999001087320030873100508934005089350039999900109130003091290050922300509224003999990010931600309315005094050050940600399999111

/-- `pad_grid.npz`: `grid[670, 0], grid[670, 10], …, grid[670, 5580]`. -/
def padGrid67 : Nat :=
  9999910904286005042850030419500304196005999990010410400504103003040090030401000599999001038150050381400303611003036120059999900103401005034000030318100303182005999990010295600502955003027220030272300599999001024820050248100302233003022340059999900101979005019780030171600301717005999990010144900501448003011740030117500599999001008940050089300300605003006060059999900100312005003110030001100300012005999990010513200505131003054310030543200599999001057260050572500306013003060140059999900106295005062940030656800306569005999990010683700506836003070980030709900599999001073540050735300307601003076020059999900107843005078420030807500308076005999990010830200508301003085200030852100599999001087320050873100308934003089350059999900109130005091290030922300309224005999990010931600509315003094050030940600599999111

/-- `pad_grid.npz`: `grid[680, 0], grid[680, 10], …, grid[680, 5580]`. -/
def padGrid68 : Nat :=
  9999910904286006042850020419500204196006999990010410400604103002040090020401000699999001038150060381400203611002036120069999900103401006034000020318100203182006999990010295600602955002027220020272300699999001024820060248100202233002022340069999900101979006019780020171600201717006999990010144900601448002011740020117500699999001008940060089300200605002006060069999900100312006003110020001100200012006999990010513200605131002054310020543200699999001057260060572500206013002060140069999900106295006062940020656800206569006999990010683700606836002070980020709900699999001073540060735300207601002076020069999900107843006078420020807500208076006999990010830200608301002085200020852100699999001087320060873100208934002089350069999900109130006091290020922300209224006999990010931600609315002094050020940600699999111

/-- `pad_grid.npz`: `grid[690, 0], grid[690, 10], …, grid[690, 5580]`. -/
def padGrid69 : Nat :=
  99999109042860080419600899999001041040080401000899999001038150080361200899999001034010080318200899999001029560080272300899999001024820080223400899999001019790080171700899999001014490080117500899999001008940080060600899999001003120080001200899999001051320080543200899999001057260080601400899999001062950080656900899999001068370080709900899999001073540080760200899999001078430080807600899999001083020080852100899999001087320080893500899999001091300080922400899999001093160080940600899999111

/-- `pad_grid.npz`: `grid[700, 0], grid[700, 10], …, grid[700, 5580]`. -/
def padGrid70 : Nat :=
  999991000437400299999007042860060428700204197002041960069999900104104006041050020401100204010006999990010381500603816002036130020361200699999001034010060340200203183002031820069999900102956006029570020272400202723006999990010248200602483002022350020223400699999001019790060198000201718002017170069999900101449006014500020117600201175006999990010089400600895002006070020060600699999001003120060031300200013002000120069999900105132006051330020543300205432006999990010572600605727002060150020601400699999001062950060629600206570002065690069999900106837006068380020710000207099006999990010735400607355002076030020760200699999001078430060784400208077002080760069999900108302006083030020852200208521006999990010873200608733002089360020893500699999001091300060913100209225002092240069999900109316006093170020940700209406006999990070949400299999102

/-- `pad_grid.npz`: `grid[710, 0], grid[710, 10], …, grid[710, 5580]`. -/
def padGrid71 : Nat :=
  99999100043740039999900604286004999990010428700304197003999990010419600499999001041040049999900104105003040110039999900104010004999990010381500499999001038160030361300399999001036120049999900103401004999990010340200303183003999990010318200499999001029560049999900102957003027240039999900102723004999990010248200499999001024830030223500399999001022340049999900101979004999990010198000301718003999990010171700499999001014490049999900101450003011760039999900101175004999990010089400499999001008950030060700399999001006060049999900100312004999990010031300300013003999990010001200499999001051320049999900105133003054330039999900105432004999990010572600499999001057270030601500399999001060140049999900106295004999990010629600306570003999990010656900499999001068370049999900106838003071000039999900107099004999990010735400499999001073550030760300399999001076020049999900107843004999990010784400308077003999990010807600499999001083020049999900108303003085220039999900108521004999990010873200499999001087330030893600399999001089350049999900109130004999990010913100309225003999990010922400499999001093160049999900109317003094070039999900109406004999990060949400399999102

/-- `pad_grid.npz`: `grid[720, 0], grid[720, 10], …, grid[720, 5580]`. -/
def padGrid72 : Nat :=
  999991000437400599999004042860030428700504197005041960039999900104104003041050050401100504010003999990010381500303816005036130050361200399999001034010030340200503183005031820039999900102956003029570050272400502723003999990010248200302483005022350050223400399999001019790030198000501718005017170039999900101449003014500050117600501175003999990010089400300895005006070050060600399999001003120030031300500013005000120039999900105132003051330050543300505432003999990010572600305727005060150050601400399999001062950030629600506570005065690039999900106837003068380050710000507099003999990010735400307355005076030050760200399999001078430030784400508077005080760039999900108302003083030050852200508521003999990010873200308733005089360050893500399999001091300030913100509225005092240039999900109316003093170050940700509406003999990040949400599999102

/-- `pad_grid.npz`: `grid[730, 0], grid[730, 10], …, grid[730, 5580]`. -/
def padGrid73 : Nat :=
  999991000437400799999002042860010428700704197007041960019999900104104001041050070401100704010001999990010381500103816007036130070361200199999001034010010340200703183007031820019999900102956001029570070272400702723001999990010248200102483007022350070223400199999001019790010198000701718007017170019999900101449001014500070117600701175001999990010089400100895007006070070060600199999001003120010031300700013007000120019999900105132001051330070543300705432001999990010572600105727007060150070601400199999001062950010629600706570007065690019999900106837001068380070710000707099001999990010735400107355007076030070760200199999001078430010784400708077007080760019999900108302001083030070852200708521001999990010873200108733007089360070893500199999001091300010913100709225007092240019999900109316001093170070940700709406001999990020949400799999102

/-- `pad_grid.npz`: `grid[740, 0], grid[740, 10], …, grid[740, 5580]`. -/
def padGrid74 : Nat :=
  9999910004374008999990010428700804197008999990010410500804011008999990010381600803613008999990010340200803183008999990010295700802724008999990010248300802235008999990010198000801718008999990010145000801176008999990010089500800607008999990010031300800013008999990010513300805433008999990010572700806015008999990010629600806570008999990010683800807100008999990010735500807603008999990010784400808077008999990010830300808522008999990010873300808936008999990010913100809225008999990010931700809407008999990010949400899999102

/-- `pad_grid.npz`: `grid[750, 0], grid[750, 10], …, grid[750, 5580]`. -/
def padGrid75 : Nat :=
  999990920445900199999007043740069999900104375001999990010428800199999001042870060419700699999001041980019999900104106001999990010410500604011006999990010401200199999001038170019999900103816006036130069999900103614001999990010340300199999001034020060318300699999001031840019999900102958001999990010295700602724006999990010272500199999001024840019999900102483006022350069999900102236001999990010198100199999001019800060171800699999001017190019999900101451001999990010145000601176006999990010117700199999001008960019999900100895006006070069999900100608001999990010031400199999001003130060001300699999001000140019999900105134001999990010513300605433006999990010543400199999001057280019999900105727006060150069999900106016001999990010629700199999001062960060657000699999001065710019999900106839001999990010683800607100006999990010710100199999001073560019999900107355006076030069999900107604001999990010784500199999001078440060807700699999001080780019999900108304001999990010830300608522006999990010852300199999001087340019999900108733006089360069999900108937001999990010913200199999001091310060922500699999001092260019999900109318001999990010931700609407006999990010940800199999001094950019999900109494006999990070957900199999094

/-- `pad_grid.npz`: `grid[760, 0], grid[760, 10], …, grid[760, 5580]`. -/
def padGrid76 : Nat :=
  999990920445900399999005043740050437500399999001042880030428700504197005041980039999900104106003041050050401100504012003999990010381700303816005036130050361400399999001034030030340200503183005031840039999900102958003029570050272400502725003999990010248400302483005022350050223600399999001019810030198000501718005017190039999900101451003014500050117600501177003999990010089600300895005006070050060800399999001003140030031300500013005000140039999900105134003051330050543300505434003999990010572800305727005060150050601600399999001062970030629600506570005065710039999900106839003068380050710000507101003999990010735600307355005076030050760400399999001078450030784400508077005080780039999900108304003083030050852200508523003999990010873400308733005089360050893700399999001091320030913100509225005092260039999900109318003093170050940700509408003999990010949500309494005999990050957900399999094

/-- `pad_grid.npz`: `grid[770, 0], grid[770, 10], …, grid[770, 5580]`. -/
def padGrid77 : Nat :=
  999990920445900599999003043740030437500599999001042880050428700304197003041980059999900104106005041050030401100304012005999990010381700503816003036130030361400599999001034030050340200303183003031840059999900102958005029570030272400302725005999990010248400502483003022350030223600599999001019810050198000301718003017190059999900101451005014500030117600301177005999990010089600500895003006070030060800599999001003140050031300300013003000140059999900105134005051330030543300305434005999990010572800505727003060150030601600599999001062970050629600306570003065710059999900106839005068380030710000307101005999990010735600507355003076030030760400599999001078450050784400308077003080780059999900108304005083030030852200308523005999990010873400508733003089360030893700599999001091320050913100309225003092260059999900109318005093170030940700309408005999990010949500509494003999990030957900599999094

/-- `pad_grid.npz`: `grid[780, 0], grid[780, 10], …, grid[780, 5580]`. -/
def padGrid78 : Nat :=
  999990920445900799999001043740010437500799999001042880070428700104197001041980079999900104106007041050010401100104012007999990010381700703816001036130010361400799999001034030070340200103183001031840079999900102958007029570010272400102725007999990010248400702483001022350010223600799999001019810070198000101718001017190079999900101451007014500010117600101177007999990010089600700895001006070010060800799999001003140070031300100013001000140079999900105134007051330010543300105434007999990010572800705727001060150010601600799999001062970070629600106570001065710079999900106839007068380010710000107101007999990010735600707355001076030010760400799999001078450070784400108077001080780079999900108304007083030010852200108523007999990010873400708733001089360010893700799999001091320070913100109225001092260079999900109318007093170010940700109408007999990010949500709494001999990010957900799999094

/-- `pad_grid.npz`: `grid[790, 0], grid[790, 10], …, grid[790, 5580]`. -/
def padGrid79 : Nat :=
  9999909204459007999990010437500899999001042880079999900104198008999990010410600799999001040120089999900103817007999990010361400899999001034030079999900103184008999990010295800799999001027250089999900102484007999990020223600799999001019810079999900201719007999990010145100799999002011770079999900100896007999990020060800799999001003140079999900200014007999990010513400799999002054340079999900105728007999990020601600799999001062970079999900206571007999990010683900799999002071010079999900107356007999990020760400799999001078450089999900108078007999990010830400899999001085230079999900108734008999990010893700799999001091320089999900109226007999990010931800899999001094080079999900109495008999990010957900799999094

/-- `pad_grid.npz`: `grid[800, 0], grid[800, 10], …, grid[800, 5580]`. -/
def padGrid80 : Nat :=
  999990920445900604460002043760020437500699999001042880060428900204199002041980069999900104106006041070020401300204012006999990010381700603818002036150020361400699999001034030060340400203185002031840069999900102958006029590020272600202725006999990010248400602485002022370020223600699999001019810060198200201720002017190069999900101451006014520020117800201177006999990010089600600897002006090020060800699999001003140060031500200015002000140069999900105134006051350020543500205434006999990010572800605729002060170020601600699999001062970060629800206572002065710069999900106839006068400020710200207101006999990010735600607357002076050020760400699999001078450060784600208079002080780069999900108304006083050020852400208523006999990010873400608735002089380020893700699999001091320060913300209227002092260069999900109318006093190020940900209408006999990010949500609496002095800020957900699999094

/-- `pad_grid.npz`: `grid[810, 0], grid[810, 10], …, grid[810, 5580]`. -/
def padGrid81 : Nat :=
  999990920445900404460004043760040437500499999001042880040428900404199004041980049999900104106004041070040401300404012004999990010381700403818004036150040361400499999001034030040340400403185004031840049999900102958004029590040272600402725004999990010248400402485004022370040223600499999001019810040198200401720004017190049999900101451004014520040117800401177004999990010089600400897004006090040060800499999001003140040031500400015004000140049999900105134004051350040543500405434004999990010572800405729004060170040601600499999001062970040629800406572004065710049999900106839004068400040710200407101004999990010735600407357004076050040760400499999001078450040784600408079004080780049999900108304004083050040852400408523004999990010873400408735004089380040893700499999001091320040913300409227004092260049999900109318004093190040940900409408004999990010949500409496004095800040957900499999094

/-- `pad_grid.npz`: `grid[820, 0], grid[820, 10], …, grid[820, 5580]`. -/
def padGrid82 : Nat :=
  999990920445900204460006043760059999900104375002999990010428800204289006041990059999900104198002999990010410600204107006040130059999900104012002999990010381700203818006036150059999900103614002999990010340300203404006031850059999900103184002999990010295800202959006027260059999900102725002999990010248400202485006022370059999900102236002999990010198100201982006017200059999900101719002999990010145100201452006011780059999900101177002999990010089600200897006006090060060800299999001003140020031500600015006000140029999900105134002051350060543500605434002999990010572800205729006060170060601600299999001062970029999900106298005065720060657100299999001068390029999900106840005071020060710100299999001073560029999900107357005076050060760400299999001078450029999900107846005080790060807800299999001083040029999900108305005085240060852300299999001087340029999900108735005089380060893700299999001091320029999900109133005092270060922600299999001093180029999900109319005094090060940800299999001094950029999900109496005095800060957900299999094

/-- `pad_grid.npz`: `grid[830, 0], grid[830, 10], …, grid[830, 5580]`. -/
def padGrid83 : Nat :=
  999990920445900104460007043760070437500199999001042880010428900704199007041980019999900104106001041070070401300704012001999990010381700103818007036150070361400199999001034030010340400703185007031840019999900102958001029590070272600702725001999990010248400102485007022370070223600199999001019810010198200701720007017190019999900101451001014520070117800701177001999990010089600100897007006090070060800199999001003140010031500700015007000140019999900105134001051350070543500705434001999990010572800105729007060170070601600199999001062970010629800706572007065710019999900106839001068400070710200707101001999990010735600107357007076050070760400199999001078450010784600708079007080780019999900108304001083050070852400708523001999990010873400108735007089380070893700199999001091320010913300709227007092260019999900109318001093190070940900709408001999990010949500109496007095800070957900199999094

/-- `pad_grid.npz`: `grid[840, 0], grid[840, 10], …, grid[840, 5580]`. -/
def padGrid84 : Nat :=
  99999092044600080437600899999001042890080419900899999001041070080401300899999001038180080361500899999001034040080318500899999001029590080272600899999001024850080223700899999001019820080172000899999001014520080117800899999001008970080060900899999001003150080001500899999001051350080543500899999001057290080601700899999001062980080657200899999001068400080710200899999001073570080760500899999001078460080807900899999001083050080852400899999001087350080893800899999001091330080922700899999001093190080940900899999001094960080958000899999094

/-- `pad_grid.npz`: `grid[850, 0], grid[850, 10], …, grid[850, 5580]`. -/
def padGrid85 : Nat :=
  99999089045420029999900104461002044600060437600604377002999990010429000204289006041990060420000299999001041080020410700604013006040140029999900103819002038180060361500603616002999990010340500203404006031850060318600299999001029600020295900602726006027270029999900102486002024850060223700602238002999990010198300201982006017200060172100299999001014530020145200601178006011790029999900100898002008970060060900600610002999990010031600200315006000150060001600299999001051360020513500605435006054360029999900105730002057290060601700606018002999990010629900206298006065720060657300299999001068410020684000607102006071030029999900107358002073570060760500607606002999990010784700207846006080790060808000299999001083060020830500608524006085250029999900108736002087350060893800608939002999990010913400209133006092270060922800299999001093200020931900609409006094100029999900109497002094960060958000609581002999990010966200299999091

/-- `pad_grid.npz`: `grid[860, 0], grid[860, 10], …, grid[860, 5580]`. -/
def padGrid86 : Nat :=
  999990880454200399999001044610039999900104460004043760049999900104377003999990010429000399999001042890040419900499999001042000039999900104108003999990010410700404013004999990010401400399999001038190039999900103818004036150049999900103616003999990010340500399999001034040040318500499999001031860039999900102960003999990010295900402726004999990010272700399999001024860039999900102485004022370049999900102238003999990010198300399999001019820040172000499999001017210039999900101453003999990010145200401178004999990010117900399999001008980039999900100897004006090049999900100610003999990010031600399999001003150040001500499999001000160039999900105136003999990010513500405435004999990010543600399999001057300039999900105729004060170049999900106018003999990010629900399999001062980040657200499999001065730039999900106841003999990010684000407102004999990010710300399999001073580039999900107357004076050049999900107606003999990010784700399999001078460040807900499999001080800039999900108306003999990010830500408524004999990010852500399999001087360039999900108735004089380049999900108939003999990010913400399999001091330040922700499999001092280039999900109320003999990010931900409409004999990010941000399999001094970039999900109496004095800049999900109581003999990010966200399999090

/-- `pad_grid.npz`: `grid[870, 0], grid[870, 10], …, grid[870, 5580]`. -/
def padGrid87 : Nat :=
  99999086045420059999900104461005044600030437600304377005999990010429000504289003041990030420000599999001041080050410700304013003040140059999900103819005038180030361500303616005999990010340500503404003031850030318600599999001029600050295900302726003027270059999900102486005024850030223700302238005999990010198300501982003017200030172100599999001014530050145200301178003011790059999900100898005008970030060900300610005999990010031600500315003000150030001600599999001051360050513500305435003054360059999900105730005057290030601700306018005999990010629900506298003065720030657300599999001068410050684000307102003071030059999900107358005073570030760500307606005999990010784700507846003080790030808000599999001083060050830500308524003085250059999900108736005087350030893800308939005999990010913400509133003092270030922800599999001093200050931900309409003094100059999900109497005094960030958000309581005999990010966200599999088

/-- `pad_grid.npz`: `grid[880, 0], grid[880, 10], …, grid[880, 5580]`. -/
def padGrid88 : Nat :=
  99999084045420079999900104461007044600010437600104377007999990010429000704289001041990010420000799999001041080070410700104013001040140079999900103819007038180010361500103616007999990010340500703404001031850010318600799999001029600070295900102726001027270079999900102486007024850010223700102238007999990010198300701982001017200010172100799999001014530070145200101178001011790079999900100898007008970010060900100610007999990010031600700315001000150010001600799999001051360070513500105435001054360079999900105730007057290010601700106018007999990010629900706298001065720010657300799999001068410070684000107102001071030079999900107358007073570010760500107606007999990010784700707846001080790010808000799999001083060070830500108524001085250079999900108736007087350010893800108939007999990010913400709133001092270010922800799999001093200070931900109409001094100079999900109497007094960010958000109581007999990010966200799999086

/-- `pad_grid.npz`: `grid[890, 0], grid[890, 10], …, grid[890, 5580]`. -/
def padGrid89 : Nat :=
  9999908204621001045430010454200799999001044610070446200104378001043770079999900104290007042910010420100104200007999990010410800704109001040150010401400799999001038190070382000103617001036160079999900103405007034060010318700103186007999990010296000702961001027280010272700799999001024860070248700102239001022380079999900101983007019840010172200101721007999990010145300701454001011800010117900799999001008980070089900100611001006100079999900100316007003170010001700100016007999990010513600705137001054370010543600799999001057300070573100106019001060180079999900106299007063000010657400106573007999990010684100706842001071040010710300799999001073580070735900107607001076060079999900107847007078480010808100108080007999990010830600708307001085260010852500799999001087360070873700108940001089390079999900109134007091350010922900109228007999990010932000709321001094110010941000799999001094970070949800109582001095810079999900109662007096630010974100199999084

/-- `pad_grid.npz`: `grid[900, 0], grid[900, 10], …, grid[900, 5580]`. -/
def padGrid90 : Nat :=
  999990810462100204543002999990010454200599999001044610059999900104462002043780029999900104377005999990010429000599999001042910020420100299999001042000059999900104108005999990010410900204015002999990010401400599999001038190059999900103820002036170029999900103616005999990010340500599999001034060020318700299999001031860059999900102960005999990010296100202728002999990010272700599999001024860059999900102487002022390029999900102238005999990010198300599999001019840020172200299999001017210059999900101453005999990010145400201180002999990010117900599999001008980059999900100899002006110029999900100610005999990010031600599999001003170020001700299999001000160059999900105136005999990010513700205437002999990010543600599999001057300059999900105731002060190029999900106018005999990010629900599999001063000020657400299999001065730059999900106841005999990010684200207104002999990010710300599999001073580059999900107359002076070029999900107606005999990010784700599999001078480020808100299999001080800059999900108306005999990010830700208526002999990010852500599999001087360059999900108737002089400029999900108939005999990010913400599999001091350020922900299999001092280059999900109320005999990010932100209411002999990010941000599999001094970059999900109498002095820029999900109581005999990010966200599999001096630020974100299999083

/-- `pad_grid.npz`: `grid[910, 0], grid[910, 10], …, grid[910, 5580]`. -/
def padGrid91 : Nat :=
  9999907904621004045430040454200499999001044610040446200404378004043770049999900104290004042910040420100404200004999990010410800404109004040150040401400499999001038190040382000403617004036160049999900103405004034060040318700403186004999990010296000402961004027280040272700499999001024860040248700402239004022380049999900101983004019840040172200401721004999990010145300401454004011800040117900499999001008980040089900400611004006100049999900100316004003170040001700400016004999990010513600405137004054370040543600499999001057300040573100406019004060180049999900106299004063000040657400406573004999990010684100406842004071040040710300499999001073580040735900407607004076060049999900107847004078480040808100408080004999990010830600408307004085260040852500499999001087360040873700408940004089390049999900109134004091350040922900409228004999990010932000409321004094110040941000499999001094970040949800409582004095810049999900109662004096630040974100499999081

/-- `pad_grid.npz`: `grid[920, 0], grid[920, 10], …, grid[920, 5580]`. -/
def padGrid92 : Nat :=
  9999907704621006045430060454200299999001044610020446200604378006043770029999900104290002042910060420100604200002999990010410800204109006040150060401400299999001038190020382000603617006036160029999900103405002034060060318700603186002999990010296000202961006027280060272700299999001024860020248700602239006022380029999900101983002019840060172200601721002999990010145300201454006011800060117900299999001008980020089900600611006006100029999900100316002003170060001700600016002999990010513600205137006054370060543600299999001057300020573100606019006060180029999900106299002063000060657400606573002999990010684100206842006071040060710300299999001073580020735900607607006076060029999900107847002078480060808100608080002999990010830600208307006085260060852500299999001087360020873700608940006089390029999900109134002091350060922900609228002999990010932000209321006094110060941000299999001094970020949800609582006095810029999900109662002096630060974100699999079

/-- `pad_grid.npz`: `grid[930, 0], grid[930, 10], …, grid[930, 5580]`. -/
def padGrid93 : Nat :=
  99999075046210080454300899999001044620080437800899999001042910080420100899999001041090080401500899999001038200080361700899999001034060080318700899999001029610080272800899999001024870080223900899999001019840080172200899999001014540080118000899999001008990080061100899999001003170080001700899999001051370080543700899999001057310080601900899999001063000080657400899999001068420080710400899999001073590080760700899999001078480080808100899999001083070080852600899999001087370080894000899999001091350080922900899999001093210080941100899999001094980080958200899999001096630080974100899999077

/-- `pad_grid.npz`: `grid[940, 0], grid[940, 10], …, grid[940, 5580]`. -/
def padGrid94 : Nat :=
  99999075046210080454300799999002044620080437800799999002042910080420100799999002041090080401500799999002038200080361700799999002034060080318700799999002029610080272800799999002024870080223900799999002019840080172200899999001014540080118000899999001008990080061100899999001003170080001700899999001051370080543700899999001057310080601900899999001063000080657400899999001068420080710400899999002073590070760700899999002078480070808100899999002083070070852600899999002087370070894000899999002091350070922900899999002093210070941100899999002094980070958200899999002096630070974100899999077

/-- `pad_grid.npz`: `grid[950, 0], grid[950, 10], …, grid[950, 5580]`. -/
def padGrid95 : Nat :=
  99999075046220020462100604543006045440029999900104463002044620060437800604379002999990010429200204291006042010060420200299999001041100020410900604015006040160029999900103821002038200060361700603618002999990010340700203406006031870060318800299999001029620020296100602728006027290029999900102488002024870060223900602240002999990010198500201984006017220060172300299999001014550020145400601180006011810029999900100900002008990060061100600612002999990010031800200317006000170060001800299999001051380020513700605437006054380029999900105732002057310060601900606020002999990010630100206300006065740060657500299999001068430020684200607104006071050029999900107360002073590060760700607608002999990010784900207848006080810060808200299999001083080020830700608526006085270029999900108738002087370060894000608941002999990010913600209135006092290060923000299999001093220020932100609411006094120029999900109499002094980060958200609583002999990010966400209663006097410060974200299999077

/-- `pad_grid.npz`: `grid[960, 0], grid[960, 10], …, grid[960, 5580]`. -/
def padGrid96 : Nat :=
  99999075046220040462100404543004045440049999900104463004044620040437800404379004999990010429200404291004042010040420200499999001041100040410900404015004040160049999900103821004038200040361700403618004999990010340700403406004031870040318800499999001029620040296100402728004027290049999900102488004024870040223900402240004999990010198500401984004017220040172300499999001014550040145400401180004011810049999900100900004008990040061100400612004999990010031800400317004000170040001800499999001051380040513700405437004054380049999900105732004057310040601900406020004999990010630100406300004065740040657500499999001068430040684200407104004071050049999900107360004073590040760700407608004999990010784900407848004080810040808200499999001083080040830700408526004085270049999900108738004087370040894000408941004999990010913600409135004092290040923000499999001093220040932100409411004094120049999900109499004094980040958200409583004999990010966400409663004097410040974200499999077

/-- `pad_grid.npz`: `grid[970, 0], grid[970, 10], …, grid[970, 5580]`. -/
def padGrid97 : Nat :=
  999990750462200599999001046210020454300204544006999990010446300599999001044620020437800204379006999990010429200599999001042910020420100204202006999990010411000599999001041090020401500204016006999990010382100599999001038200020361700203618006999990010340700599999001034060020318700299999001031880059999900102962005999990010296100202728002999990010272900599999001024880059999900102487002022390029999900102240005999990010198500599999001019840020172200299999001017230059999900101455005999990010145400201180002999990010118100599999001009000059999900100899002006110029999900100612005999990010031800599999001003170020001700299999001000180059999900105138005999990010513700205437002999990010543800599999001057320059999900105731002060190029999900106020005999990010630100599999001063000020657400299999001065750059999900106843005999990010684200207104002999990010710500599999001073600059999900107359002076070029999900107608005999990010784900599999001078480020808100299999001080820059999900108308005999990010830700208526002999990010852700599999001087380060873700208940002999990010894100599999001091360060913500209229002999990010923000599999001093220060932100209411002999990010941200599999001094990060949800209582002999990010958300599999001096640060966300209741002999990010974200599999077

/-- `pad_grid.npz`: `grid[980, 0], grid[980, 10], …, grid[980, 5580]`. -/
def padGrid98 : Nat :=
  99999075046220070462100104543001045440079999900104463007044620010437800104379007999990010429200704291001042010010420200799999001041100070410900104015001040160079999900103821007038200010361700103618007999990010340700703406001031870010318800799999001029620070296100102728001027290079999900102488007024870010223900102240007999990010198500701984001017220010172300799999001014550070145400101180001011810079999900100900007008990010061100100612007999990010031800700317001000170010001800799999001051380070513700105437001054380079999900105732007057310010601900106020007999990010630100706300001065740010657500799999001068430070684200107104001071050079999900107360007073590010760700107608007999990010784900707848001080810010808200799999001083080070830700108526001085270079999900108738007087370010894000108941007999990010913600709135001092290010923000799999001093220070932100109411001094120079999900109499007094980010958200109583007999990010966400709663001097410010974200799999077

/-- `pad_grid.npz`: `grid[990, 0], grid[990, 10], …, grid[990, 5580]`. -/
def padGrid99 : Nat :=
  9999906604698001999990080462200704623001045450010454400799999001044630070446400104380001043790079999900104292007042930010420300104202007999990010411000704111001040170010401600799999001038210070382200103619001036180079999900103407007034080010318900103188007999990010296200702963001027300010272900799999001024880070248900102241001022400079999900101985007019860010172400101723007999990010145500701456001011820010118100799999001009000070090100100613001006120079999900100318007003190010001900100018007999990010513800705139001054390010543800799999001057320070573300106021001060200079999900106301007063020010657600106575007999990010684300706844001071060010710500799999001073600070736100107609001076080079999900107849007078500010808300108082007999990010830800708309001085280010852700799999001087380070873900108942001089410079999900109136007091370010923100109230007999990010932200709323001094130010941200799999001094990070950000109584001095830079999900109664007096650010974300109742007999990080981800199999068

/-- `pad_grid.npz`: `grid[1000, 0], grid[1000, 10], …, grid[1000, 5580]`. -/
def padGrid100 : Nat :=
  9999906604698003999990060462200504623003045450030454400599999001044630050446400304380003043790059999900104292005042930030420300304202005999990010411000504111003040170030401600599999001038210050382200303619003036180059999900103407005034080030318900303188005999990010296200502963003027300030272900599999001024880050248900302241003022400059999900101985005019860030172400301723005999990010145500501456003011820030118100599999001009000050090100300613003006120059999900100318005003190030001900300018005999990010513800505139003054390030543800599999001057320050573300306021003060200059999900106301005063020030657600306575005999990010684300506844003071060030710500599999001073600050736100307609003076080059999900107849005078500030808300308082005999990010830800508309003085280030852700599999001087380050873900308942003089410059999900109136005091370030923100309230005999990010932200509323003094130030941200599999001094990050950000309584003095830059999900109664005096650030974300309742005999990060981800399999068

/-- `pad_grid.npz`: `grid[1010, 0], grid[1010, 10], …, grid[1010, 5580]`. -/
def padGrid101 : Nat :=
  9999906604698004999990050462200399999001046230040454500499999001045440039999900104463003999990010446400404380004999990010437900399999001042920039999900104293004042030049999900104202003999990010411000399999001041110040401700499999001040160039999900103821003999990010382200403619004999990010361800399999001034070039999900103408004031890049999900103188003999990010296200399999001029630040273000499999001027290039999900102488003999990010248900402241004999990010224000399999001019850039999900101986004017240049999900101723003999990010145500399999001014560040118200499999001011810039999900100900003999990010090100400613004999990010061200399999001003180039999900100319004000190049999900100018003999990010513800399999001051390040543900499999001054380039999900105732003999990010573300406021004999990010602000399999001063010039999900106302004065760049999900106575003999990010684300399999001068440040710600499999001071050039999900107360003999990010736100407609004999990010760800399999001078490039999900107850004080830049999900108082003999990010830800399999001083090040852800499999001085270039999900108738003999990010873900408942004999990010894100399999001091360039999900109137004092310049999900109230003999990010932200399999001093230040941300499999001094120039999900109499003999990010950000409584004999990010958300399999001096640039999900109665004097430049999900109742003999990050981800499999068

/-- `pad_grid.npz`: `grid[1020, 0], grid[1020, 10], …, grid[1020, 5580]`. -/
def padGrid102 : Nat :=
  9999906604698006999990030462200204623006045450060454400299999001044630020446400604380006043790029999900104292002042930060420300604202002999990010411000204111006040170060401600299999001038210020382200603619006036180029999900103407002034080060318900603188002999990010296200202963006027300060272900299999001024880020248900602241006022400029999900101985002019860060172400601723002999990010145500201456006011820060118100299999001009000020090100600613006006120029999900100318002003190060001900600018002999990010513800205139006054390060543800299999001057320020573300606021006060200029999900106301002063020060657600606575002999990010684300206844006071060060710500299999001073600020736100607609006076080029999900107849002078500060808300608082002999990010830800208309006085280060852700299999001087380020873900608942006089410029999900109136002091370060923100609230002999990010932200209323006094130060941200299999001094990020950000609584006095830029999900109664002096650060974300609742002999990030981800699999068

/-- `pad_grid.npz`: `grid[1030, 0], grid[1030, 10], …, grid[1030, 5580]`. -/
def padGrid103 : Nat :=
  9999906604698008999990010462300804545008999990010446400804380008999990010429300804203008999990010411100804017008999990010382200803619008999990010340800803189008999990010296300802730008999990010248900802241008999990010198600801724008999990010145600801182008999990010090100800613008999990010031900800019008999990010513900805439008999990010573300806021008999990010630200806576008999990010684400807106008999990010736100807609008999990010785000808083008999990010830900808528008999990010873900808942008999990010913700809231008999990010932300809413008999990010950000809584008999990010966500809743008999990010981800899999068

/-- `pad_grid.npz`: `grid[1040, 0], grid[1040, 10], …, grid[1040, 5580]`. -/
def padGrid104 : Nat :=
  99999066046980070469900199999001046240010462300704545007045460019999900104465001044640070438000704381001999990010429400104293007042030070420400199999001041120010411100704017007040180019999900103823001038220070361900703620001999990010340900103408007031890070319000199999001029640010296300702730007027310019999900102490001024890070224100702242001999990010198700101986007017240070172500199999001014570010145600701182007011830019999900100902001009010070061300700614001999990010032000100319007000190070002000199999001051400010513900705439007054400019999900105734001057330070602100706022001999990010630300106302007065760070657700199999001068450010684400707106007071070019999900107362001073610070760900707610001999990010785100107850007080830070808400199999001083100010830900708528007085290019999900108740001087390070894200708943001999990010913800109137007092310070923200199999001093240010932300709413007094140019999900109501001095000070958400709585001999990010966600109665007097430070974400199999001098190010981800799999068

/-- `pad_grid.npz`: `grid[1050, 0], grid[1050, 10], …, grid[1050, 5580]`. -/
def padGrid105 : Nat :=
  999990660469800599999001046990029999900104624002999990010462300504545005999990010454600299999001044650029999900104464005043800059999900104381002999990010429400299999001042930050420300599999001042040029999900104112002999990010411100504017005999990010401800299999001038230029999900103822005036190059999900103620002999990010340900299999001034080050318900599999001031900029999900102964002999990010296300502730005999990010273100299999001024900029999900102489005022410059999900102242002999990010198700299999001019860050172400599999001017250029999900101457002999990010145600501182005999990010118300299999001009020029999900100901005006130059999900100614002999990010032000299999001003190050001900599999001000200029999900105140002999990010513900505439005999990010544000299999001057340029999900105733005060210059999900106022002999990010630300299999001063020050657600599999001065770029999900106845002999990010684400507106005999990010710700299999001073620029999900107361005076090059999900107610002999990010785100299999001078500050808300599999001080840029999900108310002999990010830900508528005999990010852900299999001087400029999900108739005089420059999900108943002999990010913800299999001091370050923100599999001092320029999900109324002999990010932300509413005999990010941400299999001095010029999900109500005095840059999900109585002999990010966600299999001096650050974300599999001097440029999900109819002999990010981800599999068

/-- `pad_grid.npz`: `grid[1060, 0], grid[1060, 10], …, grid[1060, 5580]`. -/
def padGrid106 : Nat :=
  99999066046980040469900499999001046240040462300404545004045460049999900104465004044640040438000404381004999990010429400404293004042030040420400499999001041120040411100404017004040180049999900103823004038220040361900403620004999990010340900403408004031890040319000499999001029640040296300402730004027310049999900102490004024890040224100402242004999990010198700401986004017240040172500499999001014570040145600401182004011830049999900100902004009010040061300400614004999990010032000400319004000190040002000499999001051400040513900405439004054400049999900105734004057330040602100406022004999990010630300406302004065760040657700499999001068450040684400407106004071070049999900107362004073610040760900407610004999990010785100407850004080830040808400499999001083100040830900408528004085290049999900108740004087390040894200408943004999990010913800409137004092310040923200499999001093240040932300409413004094140049999900109501004095000040958400409585004999990010966600409665004097430040974400499999001098190040981800499999068

/-- `pad_grid.npz`: `grid[1070, 0], grid[1070, 10], …, grid[1070, 5580]`. -/
def padGrid107 : Nat :=
  99999066046980020469900699999001046240060462300204545002045460069999900104465006044640020438000204381006999990010429400604293002042030020420400699999001041120060411100204017002040180069999900103823006038220020361900203620006999990010340900603408002031890020319000699999001029640060296300202730002027310069999900102490006024890020224100202242006999990010198700601986002017240020172500699999001014570060145600201182002011830069999900100902006009010020061300200614006999990010032000600319002000190020002000699999001051400060513900205439002054400069999900105734006057330020602100206022006999990010630300606302002065760020657700699999001068450060684400207106002071070069999900107362006073610020760900207610006999990010785100607850002080830020808400699999001083100060830900208528002085290069999900108740006087390020894200208943006999990010913800609137002092310020923200699999001093240060932300209413002094140069999900109501006095000020958400209585006999990010966600609665002097430020974400699999001098190060981800299999068

/-- `pad_grid.npz`: `grid[1080, 0], grid[1080, 10], …, grid[1080, 5580]`. -/
def padGrid108 : Nat :=
  9999906604699008999990010462400804546008999990010446500804381008999990010429400804204008999990010411200804018008999990010382300803620008999990010340900803190008999990010296400802731008999990010249000802242008999990010198700801725008999990010145700801183008999990010090200800614008999990010032000800020008999990010514000805440008999990010573400806022008999990010630300806577008999990010684500807107008999990010736200807610008999990010785100808084008999990010831000808529008999990010874000808943008999990010913800809232008999990010932400809414008999990010950100809585008999990010966600809744008999990010981900899999068

/-- `pad_grid.npz`: `grid[1090, 0], grid[1090, 10], …, grid[1090, 5580]`. -/
def padGrid109 : Nat :=
  99999066047000010469900799999001046240070462500104547001045460079999900104465007044660010438200104381007999990010429400704295001042050010420400799999001041120070411300104019001040180079999900103823007038240010362100103620007999990010340900703410001031910010319000799999001029640070296500102732001027310079999900102490007024910010224300102242007999990010198700701988001017260010172500799999001014570070145800101184001011830079999900100902007009030010061500100614007999990010032000700321001000210010002000799999001051400070514100105441001054400079999900105734007057350010602300106022007999990010630300706304001065780010657700799999001068450070684600107108001071070079999900107362007073630010761100107610007999990010785100707852001080850010808400799999001083100070831100108530001085290079999900108740007087410010894400108943007999990010913800709139001092330010923200799999001093240070932500109415001094140079999900109501007095020010958600109585007999990010966600709667001097450010974400799999001098190070982000199999068

/-- `pad_grid.npz`: `grid[1100, 0], grid[1100, 10], …, grid[1100, 5580]`. -/
def padGrid110 : Nat :=
  99999066047000030469900599999001046240050462500304547003045460059999900104465005044660030438200304381005999990010429400504295003042050030420400599999001041120050411300304019003040180059999900103823005038240030362100303620005999990010340900503410003031910030319000599999001029640050296500302732003027310059999900102490005024910030224300302242005999990010198700501988003017260030172500599999001014570050145800301184003011830059999900100902005009030030061500300614005999990010032000500321003000210030002000599999001051400050514100305441003054400059999900105734005057350030602300306022005999990010630300506304003065780030657700599999001068450050684600307108003071070059999900107362005073630030761100307610005999990010785100507852003080850030808400599999001083100050831100308530003085290059999900108740005087410030894400308943005999990010913800509139003092330030923200599999001093240050932500309415003094140059999900109501005095020030958600309585005999990010966600509667003097450030974400599999001098190050982000399999068

/-- `pad_grid.npz`: `grid[1110, 0], grid[1110, 10], …, grid[1110, 5580]`. -/
def padGrid111 : Nat :=
  99999066047000050469900399999001046240030462500504547005045460039999900104465003044660050438200504381003999990010429400304295005042050050420400399999001041120030411300504019005040180039999900103823003038240050362100503620003999990010340900303410005031910050319000399999001029640030296500502732005027310039999900102490003024910050224300502242003999990010198700301988005017260050172500399999001014570030145800501184005011830039999900100902003009030050061500500614003999990010032000300321005000210050002000399999001051400030514100505441005054400039999900105734003057350050602300506022003999990010630300306304005065780050657700399999001068450030684600507108005071070039999900107362003073630050761100507610003999990010785100307852005080850050808400399999001083100030831100508530005085290039999900108740003087410050894400508943003999990010913800309139005092330050923200399999001093240030932500509415005094140039999900109501003095020050958600509585003999990010966600309667005097450050974400399999001098190030982000599999068

/-- `pad_grid.npz`: `grid[1120, 0], grid[1120, 10], …, grid[1120, 5580]`. -/
def padGrid112 : Nat :=
  999990660470000699999001046990019999900104624001999990010462500604547006999990010454600199999001044650019999900104466006043820069999900104381001999990010429400199999001042950060420500699999001042040019999900104112001999990010411300604019006999990010401800199999001038230019999900103824006036210069999900103620001999990010340900199999001034100060319100699999001031900019999900102964001999990010296500602732006999990010273100199999001024900019999900102491006022430069999900102242001999990010198700199999001019880060172600699999001017250019999900101457001999990010145800601184006999990010118300199999001009020019999900100903006006150069999900100614001999990010032000199999001003210060002100699999001000200019999900105140001999990010514100605441006999990010544000199999001057340019999900105735006060230069999900106022001999990010630300199999001063040060657800699999001065770019999900106845001999990010684600607108006999990010710700199999001073620019999900107363006076110069999900107610001999990010785100199999001078520060808500699999001080840019999900108310001999990010831100608530006999990010852900199999001087400019999900108741006089440069999900108943001999990010913800199999001091390060923300699999001092320019999900109324001999990010932500609415006999990010941400199999001095010019999900109502006095860069999900109585001999990010966600199999001096670060974500699999001097440019999900109819001999990010982000699999068

/-- `pad_grid.npz`: `grid[1130, 0], grid[1130, 10], …, grid[1130, 5580]`. -/
def padGrid113 : Nat :=
  9999906604700008999990010462500804547008999990010446600804382008999990010429500804205008999990010411300804019008999990010382400803621008999990010341000803191008999990010296500802732008999990010249100802243008999990010198800801726008999990010145800801184008999990010090300800615008999990010032100800021008999990010514100805441008999990010573500806023008999990010630400806578008999990010684600807108008999990010736300807611008999990010785200808085008999990010831100808530008999990010874100808944008999990010913900809233008999990010932500809415008999990010950200809586008999990010966700809745008999990010982000899999068

/-- `pad_grid.npz`: `grid[1140, 0], grid[1140, 10], …, grid[1140, 5580]`. -/
def padGrid114 : Nat :=
  9999905804771001999990070470000704701001999990010462600104625007045470070454800199999001044670010446600704382007043830019999900104296001042950070420500704206001999990010411400104113007040190070402000199999001038250010382400703621007036220019999900103411001034100070319100703192001999990010296600102965007027320070273300199999001024920010249100702243007022440019999900101989001019880070172600701727001999990010145900101458007011840070118500199999001009040010090300700615007006160019999900100322001003210070002100700022001999990010514200105141007054410070544200199999001057360010573500706023007060240019999900106305001063040070657800706579001999990010684700106846007071080070710900199999001073640010736300707611007076120019999900107853001078520070808500708086001999990010831200108311007085300070853100199999001087420010874100708944007089450019999900109140001091390070923300709234001999990010932600109325007094150070941600199999001095030010950200709586007095870019999900109668001096670070974500709746001999990010982100109820007999990070989100199999060

/-- `pad_grid.npz`: `grid[1150, 0], grid[1150, 10], …, grid[1150, 5580]`. -/
def padGrid115 : Nat :=
  9999905804771003999990050470000504701003999990010462600304625005045470050454800399999001044670030446600504382005043830039999900104296003042950050420500504206003999990010411400304113005040190050402000399999001038250030382400503621005036220039999900103411003034100050319100503192003999990010296600302965005027320050273300399999001024920030249100502243005022440039999900101989003019880050172600501727003999990010145900301458005011840050118500399999001009040030090300500615005006160039999900100322003003210050002100500022003999990010514200305141005054410050544200399999001057360030573500506023005060240039999900106305003063040050657800506579003999990010684700306846005071080050710900399999001073640030736300507611005076120039999900107853003078520050808500508086003999990010831200308311005085300050853100399999001087420030874100508944005089450039999900109140003091390050923300509234003999990010932600309325005094150050941600399999001095030030950200509586005095870039999900109668003096670050974500509746003999990010982100309820005999990050989100399999060

/-- `pad_grid.npz`: `grid[1160, 0], grid[1160, 10], …, grid[1160, 5580]`. -/
def padGrid116 : Nat :=
  99999058047710049999900404700003999990010470100499999001046260049999900104625003045470039999900104548004999990010446700499999001044660030438200399999001043830049999900104296004999990010429500304205003999990010420600499999001041140049999900104113003040190039999900104020004999990010382500499999001038240030362100399999001036220049999900103411004999990010341000303191003999990010319200499999001029660049999900102965003027320039999900102733004999990010249200499999001024910030224300399999001022440049999900101989004999990010198800301726003999990010172700499999001014590049999900101458003011840039999900101185004999990010090400499999001009030030061500399999001006160049999900100322004999990010032100300021003999990010002200499999001051420049999900105141003054410039999900105442004999990010573600499999001057350030602300399999001060240049999900106305004999990010630400306578003999990010657900499999001068470049999900106846003071080039999900107109004999990010736400499999001073630030761100399999001076120049999900107853004999990010785200308085003999990010808600499999001083120049999900108311003085300039999900108531004999990010874200499999001087410030894400399999001089450049999900109140004999990010913900309233003999990010923400499999001093260049999900109325003094150039999900109416004999990010950300499999001095020030958600399999001095870049999900109668004999990010966700309745003999990010974600499999001098210049999900109820003999990040989100499999060

/-- `pad_grid.npz`: `grid[1170, 0], grid[1170, 10], …, grid[1170, 5580]`. -/
def padGrid117 : Nat :=
  9999905804771006999990020470000204701006999990010462600604625002045470020454800699999001044670060446600204382002043830069999900104296006042950020420500204206006999990010411400604113002040190020402000699999001038250060382400203621002036220069999900103411006034100020319100203192006999990010296600602965002027320020273300699999001024920060249100202243002022440069999900101989006019880020172600201727006999990010145900601458002011840020118500699999001009040060090300200615002006160069999900100322006003210020002100200022006999990010514200605141002054410020544200699999001057360060573500206023002060240069999900106305006063040020657800206579006999990010684700606846002071080020710900699999001073640060736300207611002076120069999900107853006078520020808500208086006999990010831200608311002085300020853100699999001087420060874100208944002089450069999900109140006091390020923300209234006999990010932600609325002094150020941600699999001095030060950200209586002095870069999900109668006096670020974500209746006999990010982100609820002999990020989100699999060

/-- `pad_grid.npz`: `grid[1180, 0], grid[1180, 10], …, grid[1180, 5580]`. -/
def padGrid118 : Nat :=
  99999058047710080470100899999001046260080454800899999001044670080438300899999001042960080420600899999001041140080402000899999001038250080362200899999001034110080319200899999001029660080273300899999001024920080224400899999001019890080172700899999001014590080118500899999001009040080061600899999001003220080002200899999001051420080544200899999001057360080602400899999001063050080657900899999001068470080710900899999001073640080761200899999001078530080808600899999001083120080853100899999001087420080894500899999001091400080923400899999001093260080941600899999001095030080958700899999001096680080974600899999001098210080989100899999060

/-- `pad_grid.npz`: `grid[1190, 0], grid[1190, 10], …, grid[1190, 5580]`. -/
def padGrid119 : Nat :=
  9999905804771006047720020470200204701006999990010462600604627002045490020454800699999001044670060446800204384002043830069999900104296006042970020420700204206006999990010411400604115002040210020402000699999001038250060382600203623002036220069999900103411006034120020319300203192006999990010296600602967002027340020273300699999001024920060249300202245002022440069999900101989006019900020172800201727006999990010145900601460002011860020118500699999001009040060090500200617002006160069999900100322006003230020002300200022006999990010514200605143002054430020544200699999001057360060573700206025002060240069999900106305006063060020658000206579006999990010684700606848002071100020710900699999001073640060736500207613002076120069999900107853006078540020808700208086006999990010831200608313002085320020853100699999001087420060874300208946002089450069999900109140006091410020923500209234006999990010932600609327002094170020941600699999001095030060950400209588002095870069999900109668006096690020974700209746006999990010982100609822002098920020989100699999060

/-- `pad_grid.npz`: `grid[1200, 0], grid[1200, 10], …, grid[1200, 5580]`. -/
def padGrid120 : Nat :=
  99999058047710049999900104772003047020030470100599999001046260049999900104627003045490030454800599999001044670049999900104468003043840030438300599999001042960049999900104297003042070030420600599999001041140049999900104115003040210030402000599999001038250049999900103826003036230030362200599999001034110049999900103412003031930030319200599999001029660049999900102967003027340039999900102733004999990010249200499999001024930030224500399999001022440049999900101989004999990010199000301728003999990010172700499999001014590049999900101460003011860039999900101185004999990010090400499999001009050030061700399999001006160049999900100322004999990010032300300023003999990010002200499999001051420049999900105143003054430039999900105442004999990010573600499999001057370030602500399999001060240049999900106305004999990010630600306580003999990010657900499999001068470049999900106848003071100039999900107109004999990010736400499999001073650030761300399999001076120049999900107853004999990010785400308087003999990010808600499999001083120050831300308532003999990010853100499999001087420050874300308946003999990010894500499999001091400050914100309235003999990010923400499999001093260050932700309417003999990010941600499999001095030050950400309588003999990010958700499999001096680050966900309747003999990010974600499999001098210050982200309892003999990010989100499999060

/-- `pad_grid.npz`: `grid[1210, 0], grid[1210, 10], …, grid[1210, 5580]`. -/
def padGrid121 : Nat :=
  9999905804771003047720050470200504701003999990010462600304627005045490050454800399999001044670030446800504384005043830039999900104296003042970050420700504206003999990010411400304115005040210050402000399999001038250030382600503623005036220039999900103411003034120050319300503192003999990010296600302967005027340050273300399999001024920030249300502245005022440039999900101989003019900050172800501727003999990010145900301460005011860050118500399999001009040030090500500617005006160039999900100322003003230050002300500022003999990010514200305143005054430050544200399999001057360030573700506025005060240039999900106305003063060050658000506579003999990010684700306848005071100050710900399999001073640030736500507613005076120039999900107853003078540050808700508086003999990010831200308313005085320050853100399999001087420030874300508946005089450039999900109140003091410050923500509234003999990010932600309327005094170050941600399999001095030030950400509588005095870039999900109668003096690050974700509746003999990010982100309822005098920050989100399999060

/-- `pad_grid.npz`: `grid[1220, 0], grid[1220, 10], …, grid[1220, 5580]`. -/
def padGrid122 : Nat :=
  9999905804771001047720070470200704701001999990010462600104627007045490070454800199999001044670010446800704384007043830019999900104296001042970070420700704206001999990010411400104115007040210070402000199999001038250010382600703623007036220019999900103411001034120070319300703192001999990010296600102967007027340070273300199999001024920010249300702245007022440019999900101989001019900070172800701727001999990010145900101460007011860070118500199999001009040010090500700617007006160019999900100322001003230070002300700022001999990010514200105143007054430070544200199999001057360010573700706025007060240019999900106305001063060070658000706579001999990010684700106848007071100070710900199999001073640010736500707613007076120019999900107853001078540070808700708086001999990010831200108313007085320070853100199999001087420010874300708946007089450019999900109140001091410070923500709234001999990010932600109327007094170070941600199999001095030010950400709588007095870019999900109668001096690070974700709746001999990010982100109822007098920070989100199999060

/-- `pad_grid.npz`: `grid[1230, 0], grid[1230, 10], …, grid[1230, 5580]`. -/
def padGrid123 : Nat :=
  99999058047720080470200899999001046270080454900899999001044680080438400899999001042970080420700899999001041150080402100899999001038260080362300899999001034120080319300899999001029670080273400899999001024930080224500899999001019900080172800899999001014600080118600899999001009050080061700899999001003230080002300899999001051430080544300899999001057370080602500899999001063060080658000899999001068480080711000899999001073650080761300899999001078540080808700899999001083130080853200899999001087430080894600899999001091410080923500899999001093270080941700899999001095040080958800899999001096690080974700899999001098220080989200899999060

/-- `pad_grid.npz`: `grid[1240, 0], grid[1240, 10], …, grid[1240, 5580]`. -/
def padGrid124 : Nat :=
  999990560483800199999001047730010477200704702007047030019999900104628001046270070454900704550001999990010446900104468007043840070438500199999001042980010429700704207007042080019999900104116001041150070402100704022001999990010382700103826007036230070362400199999001034130010341200703193007031940019999900102968001029670070273400702735001999990010249400102493007022450070224600199999001019910010199000701728007017290019999900101461001014600070118600701187001999990010090600100905007006170070061800199999001003240010032300700023007000240019999900105144001051430070544300705444001999990010573800105737007060250070602600199999001063070010630600706580007065810019999900106849001068480070711000707111001999990010736600107365007076130070761400199999001078550010785400708087007080880019999900108314001083130070853200708533001999990010874400108743007089460070894700199999001091420010914100709235007092360019999900109328001093270070941700709418001999990010950500109504007095880070958900199999001096700010966900709747007097480019999900109823001098220070989200709893001999990010995800199999058

/-- `pad_grid.npz`: `grid[1250, 0], grid[1250, 10], …, grid[1250, 5580]`. -/
def padGrid125 : Nat :=
  999990540483800399999001047730030477200504702005047030039999900104628003046270050454900504550003999990010446900304468005043840050438500399999001042980030429700504207005042080039999900104116003041150050402100504022003999990010382700303826005036230050362400399999001034130030341200503193005031940039999900102968003029670050273400502735003999990010249400302493005022450050224600399999001019910030199000501728005017290039999900101461003014600050118600501187003999990010090600300905005006170050061800399999001003240030032300500023005000240039999900105144003051430050544300505444003999990010573800305737005060250050602600399999001063070030630600506580005065810039999900106849003068480050711000507111003999990010736600307365005076130050761400399999001078550030785400508087005080880039999900108314003083130050853200508533003999990010874400308743005089460050894700399999001091420030914100509235005092360039999900109328003093270050941700509418003999990010950500309504005095880050958900399999001096700030966900509747005097480039999900109823003098220050989200509893003999990010995800399999056

/-- `pad_grid.npz`: `grid[1260, 0], grid[1260, 10], …, grid[1260, 5580]`. -/
def padGrid126 : Nat :=
  99999052048380059999900104773005047720030470200304703005999990010462800504627003045490030455000599999001044690050446800304384003043850059999900104298005042970030420700304208005999990010411600504115003040210030402200599999001038270050382600303623003036240059999900103413005034120030319300303194005999990010296800502967003027340030273500599999001024940050249300302245003022460059999900101991005019900030172800301729005999990010146100501460003011860030118700599999001009060050090500300617003006180059999900100324005003230030002300300026001000250010002400399999001051440030514500105146001051430030544300305444005999990010573800505737003060250030602600599999001063070050630600306580003065810059999900106849005068480030711000307111005999990010736600507365003076130030761400599999001078550050785400308087003080880059999900108314005083130030853200308533005999990010874400508743003089460030894700599999001091420050914100309235003092360059999900109328005093270030941700309418005999990010950500509504003095880030958900599999001096700050966900309747003097480059999900109823005098220030989200309893005999990010995800599999054

/-- `pad_grid.npz`: `grid[1270, 0], grid[1270, 10], …, grid[1270, 5580]`. -/
def padGrid127 : Nat :=
  9999905104838006999990010477300699999001047720010470200199999001047030069999900104628006999990010462700104549001999990010455000699999001044690069999900104468001043840019999900104385006999990010429800699999001042970010420700199999001042080069999900104116006999990010411500104021001999990010402200699999001038270069999900103826001036230019999900103624006999990010341300699999001034120010319300199999001031940069999900102968006999990010296700102734001999990010273500699999001024940069999900102493001022450019999900102246006999990010199100699999001019900010172800199999001017290069999900101461006999990010146000101186001999990010118700699999001009060069999900100905001006170019999900100618006999990010032400699999001003230010002300199999001000260020002500300024001999990010514400105145003051460029999900105143001054430019999900105444006999990010573800699999001057370010602500199999001060260069999900106307006999990010630600106580001999990010658100699999001068490069999900106848001071100019999900107111006999990010736600699999001073650010761300199999001076140069999900107855006999990010785400108087001999990010808800699999001083140069999900108313001085320019999900108533006999990010874400699999001087430010894600199999001089470069999900109142006999990010914100109235001999990010923600699999001093280069999900109327001094170019999900109418006999990010950500699999001095040010958800199999001095890069999900109670006999990010966900109747001999990010974800699999001098230069999900109822001098920019999900109893006999990010995800699999053

/-- `pad_grid.npz`: `grid[1280, 0], grid[1280, 10], …, grid[1280, 5580]`. -/
def padGrid128 : Nat :=
  99999049048380089999900104773008047030089999900104628008045500089999900104469008043850089999900104298008042080089999900104116008040220089999900103827008036240089999900103413008031940089999900102968008027350089999900102494008022460089999900101991008017290089999900101461008011870089999900100906008006180089999900100324008000260040002500499999001051450040514600405444008999990010573800806026008999990010630700806581008999990010684900807111008999990010736600807614008999990010785500808088008999990010831400808533008999990010874400808947008999990010914200809236008999990010932800809418008999990010950500809589008999990010967000809748008999990010982300809893008999990010995800899999051

/-- `pad_grid.npz`: `grid[1290, 0], grid[1290, 10], …, grid[1290, 5580]`. -/
def padGrid129 : Nat :=
  9999904904839002048380069999900104773006047740020470400204703006999990010462800604629002045510020455000699999001044690060447000204386002043850069999900104298006042990020420900204208006999990010411600604117002040230020402200699999001038270060382800203625002036240069999900103413006034140020319500203194006999990010296800602969002027360020273500699999001024940060249500202247002022460069999900101991006019920020173000201729006999990010146100601462002011880020118700699999001009060060090700200619002006180069999900100324006003250020002800200026002000250029999900100027001999990010514700199999001051450020514600205148002054450020544400699999001057380060573900206027002060260069999900106307006063080020658200206581006999990010684900606850002071120020711100699999001073660060736700207615002076140069999900107855006078560020808900208088006999990010831400608315002085340020853300699999001087440060874500208948002089470069999900109142006091430020923700209236006999990010932800609329002094190020941800699999001095050060950600209590002095890069999900109670006096710020974900209748006999990010982300609824002098940020989300699999001099580060995900299999051

/-- `pad_grid.npz`: `grid[1300, 0], grid[1300, 10], …, grid[1300, 5580]`. -/
def padGrid130 : Nat :=
  99999049048390040483800499999001047730040477400404704004047030049999900104628004046290040455100404550004999990010446900404470004043860040438500499999001042980040429900404209004042080049999900104116004041170040402300404022004999990010382700403828004036250040362400499999001034130040341400403195004031940049999900102968004029690040273600402735004999990010249400402495004022470040224600499999001019910040199200401730004017290049999900101461004014620040118800401187004999990010090600400907004006190040061800499999001003240040032500400028004000250010002700399999001051470030514500105148004054450040544400499999001057380040573900406027004060260049999900106307004063080040658200406581004999990010684900406850004071120040711100499999001073660040736700407615004076140049999900107855004078560040808900408088004999990010831400408315004085340040853300499999001087440040874500408948004089470049999900109142004091430040923700409236004999990010932800409329004094190040941800499999001095050040950600409590004095890049999900109670004096710040974900409748004999990010982300409824004098940040989300499999001099580040995900499999051

/-- `pad_grid.npz`: `grid[1310, 0], grid[1310, 10], …, grid[1310, 5580]`. -/
def padGrid131 : Nat :=
  99999049048390059999900104838002999990010477300299999001047740050470400599999001047030029999900104628002999990010462900504551005999990010455000299999001044690029999900104470005043860059999900104385002999990010429800299999001042990050420900599999001042080029999900104116002999990010411700504023005999990010402200299999001038270029999900103828005036250059999900103624002999990010341300299999001034140050319500599999001031940029999900102968002999990010296900502736005999990010273500299999001024940029999900102495005022470059999900102246002999990010199100299999001019920050173000599999001017290029999900101461002999990010146200501188005999990010118700299999001009060029999900100907005006190059999900100618002999990010032400299999001003270010032600100325003000280030002900100030001999990010002700299999001051470029999900105150001051490010514800305445003054460010544700199999001054440029999900105738002999990010573900506027005999990010602600299999001063070029999900106308005065820059999900106581002999990010684900299999001068500050711200599999001071110029999900107366002999990010736700507615005999990010761400299999001078550029999900107856005080890059999900108088002999990010831400299999001083150050853400599999001085330029999900108744002999990010874500508948005999990010894700299999001091420029999900109143005092370059999900109236002999990010932800299999001093290050941900599999001094180029999900109505002999990010950600509590005999990010958900299999001096700029999900109671005097490059999900109748002999990010982300299999001098240050989400599999001098930029999900109958002999990010995900599999051

/-- `pad_grid.npz`: `grid[1320, 0], grid[1320, 10], …, grid[1320, 5580]`. -/
def padGrid132 : Nat :=
  99999049048390070483800199999001047730010477400704704007047030019999900104628001046290070455100704550001999990010446900104470007043860070438500199999001042980010429900704209007042080019999900104116001041170070402300704022001999990010382700103828007036250070362400199999001034130010341400703195007031940019999900102968001029690070273600702735001999990010249400102495007022470070224600199999001019910010199200701730007017290019999900101461001014620070118800701187001999990010090600100907007006190070061800199999001003240010032700300326003003250010002800100029003000300030002700199999001051470010515000305149003051480010544500105446003054470030544400199999001057380010573900706027007060260019999900106307001063080070658200706581001999990010684900106850007071120070711100199999001073660010736700707615007076140019999900107855001078560070808900708088001999990010831400108315007085340070853300199999001087440010874500708948007089470019999900109142001091430070923700709236001999990010932800109329007094190070941800199999001095050010950600709590007095890019999900109670001096710070974900709748001999990010982300109824007098940070989300199999001099580010995900799999051

/-- `pad_grid.npz`: `grid[1330, 0], grid[1330, 10], …, grid[1330, 5580]`. -/
def padGrid133 : Nat :=
  9999904904839008999990010477400804704008999990010462900804551008999990010447000804386008999990010429900804209008999990010411700804023008999990010382800803625008999990010341400803195008999990010296900802736008999990010249500802247008999990010199200801730008999990010146200801188008999990010090700800619008999990010032700400326003999990020002900300030004999990010515000405149003999990020544600305447004999990010573900806027008999990010630800806582008999990010685000807112008999990010736700807615008999990010785600808089008999990010831500808534008999990010874500808948008999990010914300809237008999990010932900809419008999990010950600809590008999990010967100809749008999990010982400809894008999990010995900899999051

/-- `pad_grid.npz`: `grid[1340, 0], grid[1340, 10], …, grid[1340, 5580]`. -/
def padGrid134 : Nat :=
  9999904104901002999990060483900604840002999990010477500204774006047040060470500299999001046300020462900604551006045520029999900104471002044700060438600604387002999990010430000204299006042090060421000299999001041180020411700604023006040240029999900103829002038280060362500603626002999990010341500203414006031950060319600299999001029700020296900602736006027370029999900102496002024950060224700602248002999990010199300201992006017300060173100299999001014630020146200601188006011890029999900100908002009070060061900600620002999990010032900200327002003260020032800200031002000290020003000200032002999990010515200205150002051490020515100205448002054460020544700205449002999990010574000205739006060270060602800299999001063090020630800606582006065830029999900106851002068500060711200607113002999990010736800207367006076150060761600299999001078570020785600608089006080900029999900108316002083150060853400608535002999990010874600208745006089480060894900299999001091440020914300609237006092380029999900109330002093290060941900609420002999990010950700209506006095900060959100299999001096720020967100609749006097500029999900109825002098240060989400609895002999990010996000209959006999990061002100299999043

/-- `pad_grid.npz`: `grid[1350, 0], grid[1350, 10], …, grid[1350, 5580]`. -/
def padGrid135 : Nat :=
  9999904104901003999990050483900499999001048400039999900104775003047740050470400499999001047050039999900104630003046290050455100499999001045520039999900104471003044700050438600499999001043870039999900104300003042990050420900499999001042100039999900104118003041170050402300499999001040240039999900103829003038280050362500499999001036260039999900103415003034140050319500499999001031960039999900102970003029690050273600499999001027370039999900102496003024950050224700499999001022480039999900101993003019920050173000499999001017310039999900101463003014620050118800501189003999990010090800300907005006190050062000399999001003290030032700100328004000310040003000100032003999990010515200305150001051510040544800405447001054490039999900105740003057390050602700506028003999990010630900306308005065820050658300399999001068510039999900106850004071120050711300399999001073680039999900107367004076150050761600399999001078570039999900107856004080890050809000399999001083160039999900108315004085340050853500399999001087460039999900108745004089480050894900399999001091440039999900109143004092370050923800399999001093300039999900109329004094190050942000399999001095070039999900109506004095900050959100399999001096720039999900109671004097490050975000399999001098250039999900109824004098940050989500399999001099600039999900109959004999990051002100399999043

/-- `pad_grid.npz`: `grid[1360, 0], grid[1360, 10], …, grid[1360, 5580]`. -/
def padGrid136 : Nat :=
  999990410490100599999003048390030484000599999001047750050477400304704003047050059999900104630005046290030455100304552005999990010447100504470003043860030438700599999001043000050429900304209003042100059999900104118005041170030402300304024005999990010382900503828003036250030362600599999001034150050341400303195003031960059999900102970005029690030273600302737005999990010249600502495003022470030224800599999001019930050199200301730003017310059999900101463005014620030118800301189005999990010090800500907003006190030062200100621002006200029999900100329002003300020033100100328003000310030003400100033002000320029999900105152002051530020515400105151003054480030545100105450002054490029999900105740002057410020574200105739003060270030602800599999001063090050630800306582003065830059999900106851005068500030711200307113005999990010736800507367003076150030761600599999001078570050785600308089003080900059999900108316005083150030853400308535005999990010874600508745003089480030894900599999001091440050914300309237003092380059999900109330005093290030941900309420005999990010950700509506003095900030959100599999001096720050967100309749003097500059999900109825005098240030989400309895005999990010996000509959003999990031002100599999043

/-- `pad_grid.npz`: `grid[1370, 0], grid[1370, 10], …, grid[1370, 5580]`. -/
def padGrid137 : Nat :=
  999990410490100799999001048390010484000799999001047750070477400104704001047050079999900104630007046290010455100104552007999990010447100704470001043860010438700799999001043000070429900104209001042100079999900104118007041170010402300104024007999990010382900703828001036250010362600799999001034150070341400103195001031960079999900102970007029690010273600102737007999990010249600702495001022470010224800799999001019930070199200101730001017310079999900101463007014620010118800101189007999990010090800700907001006190010062200300621003006200019999900100329001003300030033100300328001000310010003400300033003000320019999900105152001051530030515400305151001054480010545100305450003054490019999900105740001057410030574200305739001060270010602800799999001063090070630800106582001065830079999900106851007068500010711200107113007999990010736800707367001076150010761600799999001078570070785600108089001080900079999900108316007083150010853400108535007999990010874600708745001089480010894900799999001091440070914300109237001092380079999900109330007093290010941900109420007999990010950700709506001095900010959100799999001096720070967100109749001097500079999900109825007098240010989400109895007999990010996000709959001999990011002100799999043

/-- `pad_grid.npz`: `grid[1380, 0], grid[1380, 10], …, grid[1380, 5580]`. -/
def padGrid138 : Nat :=
  999990410490100704902001999990010484000799999001047750070477600199999001047050079999900104630007046310019999900104552007999990010447100704472001999990010438700799999001043000070430100199999001042100079999900104118007041190019999900104024007999990010382900703830001999990010362600799999001034150070341600199999001031960079999900102970007999990020273700799999001024960079999900202248007999990010199300799999002017310079999900101463007999990020118900799999001009080079999900200622003006210049999900100330004003310039999900200034003000330049999900105153004051540039999900205451003054500049999900105741004057420039999900206028007999990010630900799999002065830079999900106851007999990020711300799999001073680079999900207616007999990010785700799999002080900079999900108316007999990010853600108535007999990010874600799999001089500010894900799999001091440079999900109239001092380079999900109330007999990010942100109420007999990010950700799999001095920010959100799999001096720079999900109751001097500079999900109825007999990010989600109895007999990010996000799999001100220011002100799999043

/-- `pad_grid.npz`: `grid[1390, 0], grid[1390, 10], …, grid[1390, 5580]`. -/
def padGrid139 : Nat :=
  999990410490100604902002048410020484000699999001047750060477600204706002047050069999900104630006046310020455300204552006999990010447100604472002043880020438700699999001043000060430100204211002042100069999900104118006041190020402500204024006999990010382900603830002036270020362600699999001034150060341600203197002031960069999900102970006029710020273800202737006999990010249600602497002022490020224800699999001019930060199400201732002017310069999900101463006014640020119000201189006999990010090800600909002006240020062200200621002006230029999900100332002003300020033100200333002000360020003400200033002000350029999900105155002051530020515400205156002054530020545100205450002054520029999900105743002057410020574200205744002060290020602800699999001063090060631000206584002065830069999900106851006068520020711400207113006999990010736800607369002076170020761600699999001078570060785800208091002080900069999900108316006083170020853600208535006999990010874600608747002089500020894900699999001091440060914500209239002092380069999900109330006093310020942100209420006999990010950700609508002095920020959100699999001096720060967300209751002097500069999900109825006098260020989600209895006999990010996000609961002100220021002100699999043

/-- `pad_grid.npz`: `grid[1400, 0], grid[1400, 10], …, grid[1400, 5580]`. -/
def padGrid140 : Nat :=
  999990410490100404902004048410040484000499999001047750040477600404706004047050049999900104630004046310040455300404552004999990010447100404472004043880040438700499999001043000040430100404211004042100049999900104118004041190040402500404024004999990010382900403830004036270040362600499999001034150040341600403197004031960049999900102970004029710040273800402737004999990010249600402497004022490040224800499999001019930040199400401732004017310049999900101463004014640040119000401189004999990010090800400909004006240049999900100623003999990010033200399999001003330040003600499999001000350039999900105155003999990010515600405453004999990010545200399999001057430039999900105744004060290040602800499999001063090040631000406584004065830049999900106851004068520040711400407113004999990010736800407369004076170040761600499999001078570040785800408091004080900049999900108316004083170040853600408535004999990010874600408747004089500040894900499999001091440040914500409239004092380049999900109330004093310040942100409420004999990010950700409508004095920040959100499999001096720040967300409751004097500049999900109825004098260040989600409895004999990010996000409961004100220041002100499999043

/-- `pad_grid.npz`: `grid[1410, 0], grid[1410, 10], …, grid[1410, 5580]`. -/
def padGrid141 : Nat :=
  99999041049010020490200604841006048400029999900104775002047760060470600604705002999990010463000204631006045530060455200299999001044710020447200604388006043870029999900104300002043010060421100604210002999990010411800204119006040250060402400299999001038290020383000603627006036260029999900103415002034160060319700603196002999990010297000202971006027380060273700299999001024960020249700602249006022480029999900101993002019940060173200601731002999990010146300201464006011900060118900299999001009080020091100200910001009090030062400300625001006260020062300299999001003320020033500200334001003330030003600300037001000380020003500299999001051550020515800205157001051560030545300305454001054550020545200299999001057430020574600205745001057440030602900306030001060310020602800299999001063090020631000606584006065830029999900106851002068520060711400607113002999990010736800207369006076170060761600299999001078570020785800608091006080900029999900108316002083170060853600608535002999990010874600208747006089500060894900299999001091440020914500609239006092380029999900109330002093310060942100609420002999990010950700209508006095920060959100299999001096720020967300609751006097500029999900109825002098260060989600609895002999990010996000209961006100220061002100299999043

/-- `pad_grid.npz`: `grid[1420, 0], grid[1420, 10], …, grid[1420, 5580]`. -/
def padGrid142 : Nat :=
  9999904204902007048410079999900304776007047060079999900304631007045530079999900304472007043880079999900304301007042110079999900304119007040250079999900303830007036270079999900303416007031970079999900302971007027380079999900302497007022490079999900301994007017320079999900301464007011900079999900300911003009100030090900100624001006250030062600399999003003350030033400300333001000360010003700300038003999990030515800305157003051560010545300105454003054550039999900305746003057450030574400106029001060300030603100399999003063100070658400799999003068520070711400799999003073690070761700799999003078580070809100799999003083170070853600799999003087470070895000799999003091450070923900799999003093310070942100799999003095080070959200799999003096730070975100799999003098260070989600799999003099610071002200799999044

/-- `pad_grid.npz`: `grid[1430, 0], grid[1430, 10], …, grid[1430, 5580]`. -/
def padGrid143 : Nat :=
  9999904104902008048410089999900104776008047060089999900104631008045530089999900104472008043880089999900104301008042110089999900104119008040250089999900103830008036270089999900103416008031970089999900102971008027380089999900102497008022490089999900101994008017320089999900101464008011900089999900100911004009100030091200100627001006250030062600499999001003350040033400300336001000390010003700300038004999990010515800405157003051590010545600105454003054550049999900105746004057450030574700106032001060300030603100499999001063100080658400899999001068520080711400899999001073690080761700899999001078580080809100899999001083170080853600899999001087470080895000899999001091450080923900899999001093310080942100899999001095080080959200899999001096730080975100899999001098260080989600899999001099610081002200899999043

/-- `pad_grid.npz`: `grid[1440, 0], grid[1440, 10], …, grid[1440, 5580]`. -/
def padGrid144 : Nat :=
  999990410490300204902006048410060484200299999001047770020477600604706006047070029999900104632002046310060455300604554002999990010447300204472006043880060438900299999001043020020430100604211006042120029999900104120002041190060402500604026002999990010383100203830006036270060362800299999001034170020341600603197006031980029999900102972002029710060273800602739002999990010249800202497006022490060225000299999001019950020199400601732006017330029999900101465002014640060119000601191002999990010091300200911002009100019999900100912002006270029999900100625001006260020062800299999001003370020033500200334001999990010033600200039002999990010003700100038002000400029999900105160002051580020515700199999001051590020545600299999001054540010545500205457002999990010574800205746002057450019999900105747002060320029999900106030001060310020603300299999001063110020631000606584006065850029999900106853002068520060711400607115002999990010737000207369006076170060761800299999001078590020785800608091006080920029999900108318002083170060853600608537002999990010874800208747006089500060895100299999001091460020914500609239006092400029999900109332002093310060942100609422002999990010950900209508006095920060959300299999001096740020967300609751006097520029999900109827002098260060989600609897002999990010996200209961006100220061002300299999043

/-- `pad_grid.npz`: `grid[1450, 0], grid[1450, 10], …, grid[1450, 5580]`. -/
def padGrid145 : Nat :=
  999990410490300404902004048410040484200499999001047770040477600404706004047070049999900104632004046310040455300404554004999990010447300404472004043880040438900499999001043020040430100404211004042120049999900104120004041190040402500404026004999990010383100403830004036270040362800499999001034170040341600403197004031980049999900102972004029710040273800402739004999990010249800402497004022490040225000499999001019950040199400401732004017330049999900101465004014640040119000401191004999990010091300400912004006270040062800499999001003370040033600400039004000400049999900105160004051590040545600405457004999990010574800405747004060320040603300499999001063110040631000406584004065850049999900106853004068520040711400407115004999990010737000407369004076170040761800499999001078590040785800408091004080920049999900108318004083170040853600408537004999990010874800408747004089500040895100499999001091460040914500409239004092400049999900109332004093310040942100409422004999990010950900409508004095920040959300499999001096740040967300409751004097520049999900109827004098260040989600409897004999990010996200409961004100220041002300499999043

/-- `pad_grid.npz`: `grid[1460, 0], grid[1460, 10], …, grid[1460, 5580]`. -/
def padGrid146 : Nat :=
  99999041049030059999900104902002048410029999900104842005999990010477700599999001047760020470600299999001047070059999900104632005999990010463100204553002999990010455400599999001044730059999900104472002043880029999900104389005999990010430200599999001043010020421100299999001042120059999900104120005999990010411900204025002999990010402600599999001038310059999900103830002036270029999900103628005999990010341700599999001034160020319700299999001031980059999900102972005999990010297100202738002999990010273900599999001024980059999900102497002022490029999900102250005999990010199500599999001019940020173200299999001017330059999900101465005999990010146400201190002999990010119300101192002011910029999900100913002009140020091500199999001009120020062700299999001006300010062900200628002999990010033700200338002003390019999900100336002000390029999900100042001000410020004000299999001051600020516100205162001999990010515900205456002999990010545900105458002054570029999900105748002057490020575000199999001057470020603200299999001060350010603400206033002999990010631100206312002063130019999900106310002065840029999900106585005999990010685300599999001068520020711400299999001071150059999900107370005999990010736900207617002999990010761800599999001078590059999900107858002080910029999900108092005999990010831800599999001083170020853600299999001085370059999900108748005999990010874700208950002999990010895100599999001091460059999900109145002092390029999900109240005999990010933200599999001093310020942100299999001094220059999900109509005999990010950800209592002999990010959300599999001096740059999900109673002097510029999900109752005999990010982700599999001098260020989600299999001098970059999900109962005999990010996100210022002999990011002300599999043

/-- `pad_grid.npz`: `grid[1470, 0], grid[1470, 10], …, grid[1470, 5580]`. -/
def padGrid147 : Nat :=
  99999041049030070490200104841001048420079999900104777007047760010470600104707007999990010463200704631001045530010455400799999001044730070447200104388001043890079999900104302007043010010421100104212007999990010412000704119001040250010402600799999001038310070383000103627001036280079999900103417007034160010319700103198007999990010297200702971001027380010273900799999001024980070249700102249001022500079999900101995007019940010173200101733007999990010146500701464001011900010119300301192004999990010091400400915003009120010062700100630003006290049999900100338004003390030033600100039001000420030004100499999001051610040516200305159001054560010545900305458004999990010574900405750003057470010603200106035003060340049999900106312004063130030631000106584001065850079999900106853007068520010711400107115007999990010737000707369001076170010761800799999001078590070785800108091001080920079999900108318007083170010853600108537007999990010874800708747001089500010895100799999001091460070914500109239001092400079999900109332007093310010942100109422007999990010950900709508001095920010959300799999001096740070967300109751001097520079999900109827007098260010989600109897007999990010996200709961001100220011002300799999043

/-- `pad_grid.npz`: `grid[1480, 0], grid[1480, 10], …, grid[1480, 5580]`. -/
def padGrid148 : Nat :=
  9999903204960001999990080490300704904001048430010484200799999001047770070477800104708001047070079999900104632007046330010455500104554007999990010447300704474001043900010438900799999001043020070430300104213001042120079999900104120007041210010402700104026007999990010383100703832001036290010362800799999001034170070341800103199001031980079999900102972007029730010274000102739007999990010249800702499001022510010225000799999001019950070199600101734001017330079999900101465007014660010119500101193003011920039999900300914003009150030091700100632001006300030062900399999003003380030033900300341001000440010004200300041003999990030516100305162003051640010546100105459003054580039999900305749003057500030575200106037001060350030603400399999003063120030631300306315001065860010658500799999001068530070685400107116001071150079999900107370007073710010761900107618007999990010785900707860001080930010809200799999001083180070831900108538001085370079999900108748007087490010895200108951007999990010914600709147001092410010924000799999001093320070933300109423001094220079999900109509007095100010959400109593007999990010967400709675001097530010975200799999001098270070982800109898001098970079999900109962007099630011002400110023007999990081008000199999034

/-- `pad_grid.npz`: `grid[1490, 0], grid[1490, 10], …, grid[1490, 5580]`. -/
def padGrid149 : Nat :=
  9999903204960002999990070490300504904003048430029999900104842005999990010477700504778003047080030470700599999001046320050463300304555003045540059999900104473005044740030439000304389005999990010430200504303003042130030421200599999001041200050412100304027003040260059999900103831005038320030362900303628005999990010341700503418003031990030319800599999001029720050297300302740003027390059999900102498005024990030225100302250005999990010199500501996003017340030173300599999001014650050146600301195003011930010119200201194002999990010091600200914002009150010091700300632003006300010062900200631002999990010034000200338002003390010034100300044003000420010004100200043002999990010516300205161002051620010516400305461003054590010545800205460002999990010575100205749002057500010575200306037003060350010603400206036002999990010631400206312002063130010631500306586003065850059999900106853005068540030711600307115005999990010737000507371003076190030761800599999001078590050786000308093003080920059999900108318005083190030853800308537005999990010874800508749003089520030895100599999001091460050914700309241003092400059999900109332005093330030942300309422005999990010950900509510003095940030959300599999001096740050967500309753003097520059999900109827005098280030989800309897005999990010996200599999001099630021002400310023005999990071008000299999034

/-- `pad_grid.npz`: `grid[1500, 0], grid[1500, 10], …, grid[1500, 5580]`. -/
def padGrid150 : Nat :=
  99999032049600049999900504903003999990010490400404843004048420049999900104777003999990010477800404708004047070049999900104632003999990010463300404555004045540049999900104473004044740040439000404389004999990010430200404303004042130040421200499999001041200040412100404027004040260049999900103831004038320040362900403628004999990010341700403418004031990040319800499999001029720040297300402740004027390049999900102498004024990040225100402250004999990010199500401996004017340040173300499999001014650040146600401195004011940049999900100916004009170040063200400631004999990010034000400341004000440040004300499999001051630040516400405461004054600049999900105751004057520040603700406036004999990010631400406315004065860040658500499999001068530040685400407116004071150049999900107370004073710040761900407618004999990010785900407860004080930040809200499999001083180040831900408538004085370049999900108748004087490040895200408951004999990010914600409147004092410040924000499999001093320040933300409423004094220049999900109509004095100040959400409593004999990010967400409675004097530049999900109752003999990010982700409828004098980049999900109897003999990010996200409963004100240049999900110023003999990051008000499999034

/-- `pad_grid.npz`: `grid[1510, 0], grid[1510, 10], …, grid[1510, 5580]`. -/
def padGrid151 : Nat :=
  999990320496000699999003049030020490400604843006048420029999900104777002047780060470800604707002999990010463200204633006045550060455400299999001044730020447400604390006043890029999900104302002043030060421300604212002999990010412000204121006040270060402600299999001038310020383200603629006036280029999900103417002034180060319900603198002999990010297200202973006027400060273900299999001024980020249900602251006022500029999900101995002019960060173400601733002999990010146500201468002014670019999900101466002011950020119600201197002011940029999900100916002009190020091800199999001009170020063200200633002006340020063100299999001003400020034300200342001999990010034100200044002999990010004500100046002000430029999900105163002051660020516500199999001051640020546100299999001054620010546300205460002999990010575100205754002057530020575200206037002999990010603800106039002060360029999900106314002063170020631600206315002065860029999900106587001065880020658500299999001068530020685400607116006071150029999900107370002073710060761900607618002999990010785900207860006080930060809200299999001083180020831900608538006085370029999900108748002087490060895200608951002999990010914600209147006092410060924000299999001093320020933300609423006094220029999900109509002095100060959400609593002999990010967400209675006097530060975200299999001098270020982800609898006098970029999900109962002099630061002400610023002999990031008000699999034

/-- `pad_grid.npz`: `grid[1520, 0], grid[1520, 10], …, grid[1520, 5580]`. -/
def padGrid152 : Nat :=
  9999903204960008999990010490400804843008999990010477800804708008999990010463300804555008999990010447400804390008999990010430300804213008999990010412100804027008999990010383200803629008999990010341800803199008999990010297300802740008999990010249900802251008999990010199600801734008999990010146800401467003014660010119500101196003011970049999900100919004009180030091700100632001006330030063400499999001003430040034200300341001000440010004500300046004999990010516600405165003051640010546100105462003054630049999900105754004057530030575200106037001060380030603900499999001063170040631600306315001065860010658700306588004999990010685400807116008999990010737100807619008999990010786000808093008999990010831900808538008999990010874900808952008999990010914700809241008999990010933300809423008999990010951000809594008999990010967500809753008999990010982800809898008999990010996300810024008999990011008000899999034

/-- `pad_grid.npz`: `grid[1530, 0], grid[1530, 10], …, grid[1530, 5580]`. -/
def padGrid153 : Nat :=
  9999903204960007999990030490400704843007999990030477800704708007999990030463300704555007999990030447400704390007999990030430300704213007999990030412100704027007999990030383200703629007999990030341800703199007999990030297300702740007999990030249900702251007999990030199600701734007999990030146800301467003014690010119800101196003011970039999900300919003009180030092000100635001006330030063400399999003003430030034200300344001000470010004500300046003999990030516600305165003051670010546400105462003054630039999900305754003057530030575500106040001060380030603900399999003063170030631600306318001065890010658700306588003999990030685400707116007999990030737100707619007999990030786000708093007999990030831900708538007999990030874900708952007999990030914700709241007999990030933300709423007999990030951000709594007999990030967500709753007999990030982800709898007999990030996300710024007999990031008000799999034

/-- `pad_grid.npz`: `grid[1540, 0], grid[1540, 10], …, grid[1540, 5580]`. -/
def padGrid154 : Nat :=
  999990320496000604961002999990010490500204904006048430060484400299999001047790020477800604708006047090029999900104634002046330060455500604556002999990010447500204474006043900060439100299999001043040020430300604213006042140029999900104122002041210060402700604028002999990010383300203832006036290060363000299999001034190020341800603199006032000029999900102974002029730060274000602741002999990010250000202499006022510060225200299999001019970020199600601734006017350029999900101470002014680020146700101469003011980030119600101197002011990029999900100921002009190020091800100920003006350030063300100634002006360029999900100345002003430020034200100344003000470030004500100046002000480029999900105168002051660020516500105167003054640030546200105463002054650029999900105756002057540020575300105755003060400030603800106039002060410029999900106319002063170020631600106318003065890030658700106588002065900029999900106855002068540060711600607117002999990010737200207371006076190060762000299999001078610020786000608093006080940029999900108320002083190060853800608539002999990010875000208749006089520060895300299999001091480020914700609241006092420029999900109334002093330060942300609424002999990010951100209510006095940060959500299999001096760020967500609753006097540029999900109829002098280060989800609899002999990010996400209963006100240061002500299999001100810021008000699999034

/-- `pad_grid.npz`: `grid[1550, 0], grid[1550, 10], …, grid[1550, 5580]`. -/
def padGrid155 : Nat :=
  9999903204960004049610049999900104905004049040040484300404844004999990010477900404778004047080040470900499999001046340040463300404555004045560049999900104475004044740040439000404391004999990010430400404303004042130040421400499999001041220040412100404027004040280049999900103833004038320040362900403630004999990010341900403418004031990040320000499999001029740040297300402740004027410049999900102500004024990040225100402252004999990010199700401996004017340049999900101735003999990010147000399999001014690040119800499999001011990039999900100921003999990010092000400635004999990010063600399999001003450039999900100344004000470049999900100048003999990010516800399999001051670040546400499999001054650039999900105756003999990010575500406040004999990010604100399999001063190039999900106318004065890049999900106590003999990010685500399999001068540040711600407117004999990010737200407371004076190040762000499999001078610040786000408093004080940049999900108320004083190040853800408539004999990010875000408749004089520040895300499999001091480040914700409241004092420049999900109334004093330040942300409424004999990010951100409510004095940040959500499999001096760040967500409753004097540049999900109829004098280040989800409899004999990010996400409963004100240041002500499999001100810041008000499999034

/-- `pad_grid.npz`: `grid[1560, 0], grid[1560, 10], …, grid[1560, 5580]`. -/
def padGrid156 : Nat :=
  99999032049600020496100699999001049050060490400204843002048440069999900104779006047780020470800204709006999990010463400604633002045550020455600699999001044750060447400204390002043910069999900104304006043030020421300204214006999990010412200604121002040270020402800699999001038330060383200203629002036300069999900103419006034180020319900203200006999990010297400602973002027400020274100699999001025000060249900202251002022520069999900101997006019960020173400201737002017360020173500299999001014700020147100201472002014690020119800201201002012000020119900299999001009210020092200200923002009200020063500200638002006370020063600299999001003450020034600200347002003440020004700200050002000490020004800299999001051680020516900205170002051670020546400205467002054660020546500299999001057560020575700205758002057550020604000206043002060420020604100299999001063190020632000206321002063180020658900206592002065910020659000299999001068550020685600206857002068540020711600207117006999990010737200607371002076190020762000699999001078610060786000208093002080940069999900108320006083190020853800208539006999990010875000608749002089520020895300699999001091480060914700209241002092420069999900109334006093330020942300209424006999990010951100609510002095940020959500699999001096760060967500209753002097540069999900109829006098280020989800209899006999990010996400609963002100240021002500699999001100810061008000299999034

/-- `pad_grid.npz`: `grid[1570, 0], grid[1570, 10], …, grid[1570, 5580]`. -/
def padGrid157 : Nat :=
  9999903304961007999990010490500799999002048440079999900104779007999990020470900799999001046340079999900204556007999990010447500799999002043910079999900104304007999990020421400799999001041220079999900204028007999990010383300799999002036300079999900103419007999990020320000799999001029740079999900202741007999990010250000799999002022520079999900101997007999990020173700301736004999990010147100401472003999990020120100301200004999990010092200400923003999990020063800300637004999990010034600400347003999990020005000300049004999990010516900405170003999990020546700305466004999990010575700405758003999990020604300306042004999990010632000406321003999990020659200306591004999990010685600406857003999990020711700799999001073720079999900207620007999990010786100799999002080940079999900108320007999990020853900799999001087500079999900208953007999990010914800799999002092420079999900109334007999990020942400799999001095110079999900209595007999990010967600799999002097540079999900109829007999990020989900799999001099640079999900210025007999990011008100799999035

/-- `pad_grid.npz`: `grid[1580, 0], grid[1580, 10], …, grid[1580, 5580]`. -/
def padGrid158 : Nat :=
  99999032049620010496100799999001049050070490600104845001048440079999900104779007047800010471000104709007999990010463400704635001045570010455600799999001044750070447600104392001043910079999900104304007043050010421500104214007999990010412200704123001040290010402800799999001038330070383400103631001036300079999900103419007034200010320100103200007999990010297400702975001027420010274100799999001025000070250100102253001022520079999900101997007019980010173900101737003017360030173800199999001014730010147100301472003014740010120300101201003012000030120200199999001009240010092200300923003009250010064000100638003006370030063900199999001003480010034600300347003003490010005200100050003000490030005100199999001051710010516900305170003051720010546900105467003054660030546800199999001057590010575700305758003057600010604500106043003060420030604400199999001063220010632000306321003063230010659400106592003065910030659300199999001068580010685600306857003068590010711800107117007999990010737200707373001076210010762000799999001078610070786200108095001080940079999900108320007083210010854000108539007999990010875000708751001089540010895300799999001091480070914900109243001092420079999900109334007093350010942500109424007999990010951100709512001095960010959500799999001096760070967700109755001097540079999900109829007098300010990000109899007999990010996400709965001100260011002500799999001100810071008200199999034

/-- `pad_grid.npz`: `grid[1590, 0], grid[1590, 10], …, grid[1590, 5580]`. -/
def padGrid159 : Nat :=
  999990320496200304961005999990010490500504906003048450030484400599999001047790050478000304710003047090059999900104634005046350030455700304556005999990010447500504476003043920030439100599999001043040050430500304215003042140059999900104122005041230030402900304028005999990010383300503834003036310030363000599999001034190050342000303201003032000059999900102974005029750030274200302741005999990010250000502501003022530030225200599999001019970050199800301739003017370010173600199999001017380029999900101473002999990010147100101472001014740030120300301201001012000019999900101202002999990010092400299999001009220010092300100925003006400030063800100637001999990010063900299999001003480029999900100346001003470010034900300052003000500010004900199999001000510029999900105171002999990010516900105170001051720030546900305467001054660019999900105468002999990010575900299999001057570010575800105760003060450030604300106042001999990010604400299999001063220029999900106320001063210010632300306594003065920010659100199999001065930029999900106858002999990010685600106857001068590030711800307117005999990010737200507373003076210030762000599999001078610050786200308095003080940059999900108320005083210030854000308539005999990010875000508751003089540030895300599999001091480050914900309243003092420059999900109334005093350030942500309424005999990010951100509512003095960030959500599999001096760050967700309755003097540059999900109829005098300030990000309899005999990010996400509965003100260031002500599999001100810051008200399999034

/-- `pad_grid.npz`: `grid[1600, 0], grid[1600, 10], …, grid[1600, 5580]`. -/
def padGrid160 : Nat :=
  99999032049620050496100399999001049050030490600504845005048440039999900104779003047800050471000504709003999990010463400304635005045570050455600399999001044750030447600504392005043910039999900104304003043050050421500504214003999990010412200304123005040290050402800399999001038330030383400503631005036300039999900103419003034200050320100503200003999990010297400302975005027420050274100399999001025000030250100502253005022520039999900101997003020000010199800401739004017410010173800399999001014730030147600101474004012030040120500101202003999990010092400300927001009250040064000400642001006390039999900100348003003510010034900400052004000540010005100399999001051710030517400105172004054690040547100105468003999990010575900305762001057600040604500406047001060440039999900106322003063250010632300406594004065960010659300399999001068580030686100106859004071180040712000107117003999990010737200307373005076210050762000399999001078610030786200508095005080940039999900108320003083210050854000508539003999990010875000308751005089540050895300399999001091480030914900509243005092420039999900109334003093350050942500509424003999990010951100309512005095960050959500399999001096760030967700509755005097540039999900109829003098300050990000509899003999990010996400309965005100260051002500399999001100810031008200599999034

/-- `pad_grid.npz`: `grid[1610, 0], grid[1610, 10], …, grid[1610, 5580]`. -/
def padGrid161 : Nat :=
  99999032049620060496100299999001049050019999900104906006048450060484400299999001047790019999900104780006047100060470900299999001046340019999900104635006045570060455600299999001044750019999900104476006043920060439100299999001043040019999900104305006042150060421400299999001041220019999900104123006040290060402800299999001038330019999900103834006036310069999900103630001999990010341900199999001034200060320100699999001032000019999900102974001999990010297500602742006999990010274100199999001025000019999900102501006022530069999900102252001999990010199700199999001020000020199900201998002017390020174000201741002999990010173800199999001014730019999900101476002014750020147400201203002012040020120500299999001012020019999900100924001999990010092700200926002009250020064000200641002006420029999900100639001999990010034800199999001003510020035000200349002000520020005300200054002999990010005100199999001051710019999900105174002051730020517200205469002054700020547100299999001054680019999900105759001999990010576200205761002057600020604500206046002060470029999900106044001999990010632200199999001063250020632400206323002065940020659500206596002999990010659300199999001068580019999900106861002068600020685900207118002071190020712000299999001071170019999900107372001999990010737300607621006999990010762000199999001078610019999900107862006080950069999900108094001999990010832000199999001083210060854000699999001085390019999900108750001999990010875100608954006999990010895300199999001091480020914900609243006999990010924200199999001093340020933500609425006999990010942400199999001095110020951200609596006999990010959500199999001096760020967700609755006999990010975400199999001098290020983000609900006999990010989900199999001099640020996500610026006999990011002500199999001100810021008200699999034

/-- `pad_grid.npz`: `grid[1620, 0], grid[1620, 10], …, grid[1620, 5580]`. -/
def padGrid162 : Nat :=
  999990320496200899999001049060080484500899999001047800080471000899999001046350080455700899999001044760080439200899999001043050080421500899999001041230080402900899999001038340080363100899999001034200080320100899999001029750080274200899999001025010080225300899999001020000040199900401740004017410049999900101476004014750040120400401205004999990010092700400926004006410040064200499999001003510040035000400053004000540049999900105174004051730040547000405471004999990010576200405761004060460040604700499999001063250040632400406595004065960049999900106861004068600040711900407120004999990010737300807621008999990010786200808095008999990010832100808540008999990010875100808954008999990010914900809243008999990010933500809425008999990010951200809596008999990010967700809755008999990010983000809900008999990010996500810026008999990011008200899999034

/-- `pad_grid.npz`: `grid[1630, 0], grid[1630, 10], …, grid[1630, 5580]`. -/
def padGrid163 : Nat :=
  9999903204962007049630019999900104907001049060070484500704846001999990010478100104780007047100070471100199999001046360010463500704557007045580019999900104477001044760070439200704393001999990010430600104305007042150070421600199999001041240010412300704029007040300019999900103835001038340070363100703632001999990010342100103420007032010070320200199999001029760010297500702742007027430019999900102502001025010070225300702254001999990010200200102000003019990030200100101742001017400030174100301743001999990010147800101476003014750030147700101206001012040030120500301207001999990010092900100927003009260030092800100643001006410030064200300644001999990010035300100351003003500030035200100055001000530030005400300056001999990010517600105174003051730030517500105472001054700030547100305473001999990010576400105762003057610030576300106048001060460030604700306049001999990010632700106325003063240030632600106597001065950030659600306598001999990010686300106861003068600030686200107121001071190030712000307122001999990010737400107373007076210070762200199999001078630010786200708095007080960019999900108322001083210070854000708541001999990010875200108751007089540070895500199999001091500010914900709243007092440019999900109336001093350070942500709426001999990010951300109512007095960070959700199999001096780010967700709755007097560019999900109831001098300070990000709901001999990010996600109965007100260071002700199999001100830011008200799999034

/-- `pad_grid.npz`: `grid[1640, 0], grid[1640, 10], …, grid[1640, 5580]`. -/
def padGrid164 : Nat :=
  99999032049620050496300399999001049070029999900104906005048450050484600399999001047810029999900104780005047100050471100399999001046360029999900104635005045570050455800399999001044770029999900104476005043920050439300399999001043060029999900104305005042150050421600399999001041240029999900104123005040290050403000399999001038350029999900103834005036310050363200399999001034210029999900103420005032010050320200399999001029760029999900102975005027420050274300399999001025020029999900102501005022530050225400399999001020020030200000101999001020010030174200301740001017410010174300399999001014780030147600101475001014770030120600301204001012050010120700399999001009290030092700100926001009280030064300300641001006420010064400399999001003530030035100100350001003520030005500300053001000540010005600399999001051760030517400105173001051750030547200305470001054710010547300399999001057640030576200105761001057630030604800306046001060470010604900399999001063270030632500106324001063260030659700306595001065960010659800399999001068630030686100106860001068620030712100307119001071200010712200399999001073740030737300507621005999990010762200299999001078630030786200508095005999990010809600299999001083220030832100508540005999990010854100299999001087520030875100508954005999990010895500299999001091500030914900509243005999990010924400299999001093360030933500509425005999990010942600299999001095130030951200509596005999990010959700299999001096780030967700509755005999990010975600299999001098310030983000509900005999990010990100299999001099660030996500510026005999990011002700299999001100830031008200599999034

/-- `pad_grid.npz`: `grid[1650, 0], grid[1650, 10], …, grid[1650, 5580]`. -/
def padGrid165 : Nat :=
  999990320496200404963004999990010490700404906004048450040484600499999001047810040478000404710004047110049999900104636004046350040455700404558004999990010447700404476004043920040439300499999001043060040430500404215004042160049999900104124004041230040402900404030004999990010383500403834004036310040363200499999001034210040342000403201004032020049999900102976004029750040274200402743004999990010250200402501004022530040225500102254003999990010200200302003001020010040174200401744001017430039999900101478003014790010147700401206004012080010120700399999001009290030093000100928004006430040064500100644003999990010035300300354001003520040005500400057001000560039999900105176003051770010517500405472004054740010547300399999001057640030576500105763004060480040605000106049003999990010632700306328001063260040659700406599001065980039999900106863003068640010686200407121004071230010712200399999001073740030737500107373004076210040762200499999001078630040786200408095004080960049999900108322004083210040854000408541004999990010875200408751004089540040895500499999001091500040914900409243004092440049999900109336004093350040942500409426004999990010951300409512004095960040959700499999001096780040967700409755004097560049999900109831004098300040990000409901004999990010996600409965004100260041002700499999001100830041008200499999034

/-- `pad_grid.npz`: `grid[1660, 0], grid[1660, 10], …, grid[1660, 5580]`. -/
def padGrid166 : Nat :=
  999990320496200204963006999990010490700604906002048450020484600699999001047810060478000204710002047110069999900104636006046350020455700204558006999990010447700604476002043920020439300699999001043060060430500204215002042160069999900104124006041230020402900204030006999990010383500603834002036310020363200699999001034210060342000203201002032020069999900102976006029750020274200202743006999990010250200602501002022530020225600202255002999990010225400199999001020020019999900102003002020040020200100201742002017450020174400299999001017430019999900101478001999990010147900201480002014770020120600201209002012080029999900101207001999990010092900199999001009300020093100200928002006430020064600200645002999990010064400199999001003530019999900100354002003550020035200200055002000580020005700299999001000560019999900105176001999990010517700205178002051750020547200205475002054740029999900105473001999990010576400199999001057650020576600205763002060480020605100206050002999990010604900199999001063270019999900106328002063290020632600206597002066000020659900299999001065980019999900106863001999990010686400206865002068620020712100207124002071230029999900107122001999990010737400199999001073750020737600207373002076210020762200699999001078630060786200208095002080960069999900108322006083210020854000208541006999990010875200608751002089540020895500699999001091500060914900209243002092440069999900109336006093350020942500209426006999990010951300609512002095960020959700699999001096780060967700209755002097560069999900109831006098300020990000209901006999990010996600609965002100260021002700699999001100830061008200299999034

/-- `pad_grid.npz`: `grid[1670, 0], grid[1670, 10], …, grid[1670, 5580]`. -/
def padGrid167 : Nat :=
  9999903204963008999990010490700804846008999990010478100804711008999990010463600804558008999990010447700804393008999990010430600804216008999990010412400804030008999990010383500803632008999990010342100803202008999990010297600802743008999990010250200802256004022550049999900102003004020040040174500401744004999990010147900401480004012090040120800499999001009300040093100400646004006450049999900100354004003550040005800400057004999990010517700405178004054750040547400499999001057650040576600406051004060500049999900106328004063290040660000406599004999990010686400406865004071240040712300499999001073750040737600407622008999990010786300808096008999990010832200808541008999990010875200808955008999990010915000809244008999990010933600809426008999990010951300809597008999990010967800809756008999990010983100809901008999990010996600810027008999990011008300899999034

/-- `pad_grid.npz`: `grid[1680, 0], grid[1680, 10], …, grid[1680, 5580]`. -/
def padGrid168 : Nat :=
  999990310501300104964001999990010496300699999001049070069999900104908001048470019999900104846006999990010478100699999001047820010471200199999001047110069999900104636006999990010463700104559001999990010455800699999001044770069999900104478001043940019999900104393006999990010430600699999001043070010421700199999001042160069999900104124006999990010412500104031001999990010403000699999001038350069999900103836001036330019999900103632006999990010342100699999001034220010320300199999001032020069999900102976006999990010297700102744001999990010274300699999001025020069999900102503001022580019999900102256002022550030225700199999001020050010200300302004002999990010200600101747001999990010174500201744003017460019999900101481001014790030148000299999001014820010121100199999001012090020120800301210001999990010093200100930003009310029999900100933001006480019999900100646002006450030064700199999001003560010035400300355002999990010035700100060001999990010005800200057003000590019999900105179001051770030517800299999001051800010547700199999001054750020547400305476001999990010576700105765003057660029999900105768001060530019999900106051002060500030605200199999001063300010632800306329002999990010633100106602001999990010660000206599003066010019999900106866001068640030686500299999001068670010712600199999001071240020712300307125001999990010737700107375003073760029999900107378001076230019999900107622006999990010786300699999001078640010809700199999001080960069999900108322006999990010832300108542001999990010854100699999001087520069999900108753001089560019999900108955006999990010915000699999001091510010924500199999001092440069999900109336006999990010933700109427001999990010942600699999001095130069999900109514001095980019999900109597006999990010967800699999001096790010975700199999001097560069999900109831006999990010983200109902001999990010990100699999001099660069999900109967001100280019999900110027006999990011008300699999001100840011013300199999033

/-- `pad_grid.npz`: `grid[1690, 0], grid[1690, 10], …, grid[1690, 5580]`. -/
def padGrid169 : Nat :=
  9999902905013003049640030496300599999001049070050490800304847003048460059999900104781005047820030471200304711005999990010463600504637003045590030455800599999001044770050447800304394003043930059999900104306005043070030421700304216005999990010412400504125003040310030403000599999001038350050383600303633003036320059999900103421005034220030320300303202005999990010297600502977003027440030274300599999001025020050250300302258003022560010225500102257003999990010200500302003001020040010200600301747003017450010174400101746003999990010148100301479001014800010148200301211003012090010120800101210003999990010093200300930001009310010093300300648003006460010064500100647003999990010035600300354001003550010035700300060003000580010005700100059003999990010517900305177001051780010518000305477003054750010547400105476003999990010576700305765001057660010576800306053003060510010605000106052003999990010633000306328001063290010633100306602003066000010659900106601003999990010686600306864001068650010686700307126003071240010712300107125003999990010737700307375001073760010737800307623003076220059999900107863005078640030809700308096005999990010832200508323003085420030854100599999001087520050875300308956003089550059999900109150005091510030924500309244005999990010933600509337003094270030942600599999001095130050951400309598003095970059999900109678005096790030975700309756005999990010983100509832003099020030990100599999001099660050996700310028003100270059999900110083005100840031013300399999031

/-- `pad_grid.npz`: `grid[1700, 0], grid[1700, 10], …, grid[1700, 5580]`. -/
def padGrid170 : Nat :=
  999990270501300504964005049630039999900104907003049080050484700504846003999990010478100304782005047120050471100399999001046360030463700504559005045580039999900104477003044780050439400504393003999990010430600304307005042170050421600399999001041240030412500504031005040300039999900103835003038360050363300503632003999990010342100303422005032030050320200399999001029760030297700502744005027430039999900102502003025050019999900102503003022580039999900102260001022570039999900102005003020080019999900102006003017470039999900101749001017460039999900101481003014840019999900101482003012110039999900101213001012100039999900100932003009350019999900100933003006480039999900100650001006470039999900100356003003590019999900100357003000600039999900100062001000590039999900105179003051820019999900105180003054770039999900105479001054760039999900105767003057700019999900105768003060530039999900106055001060520039999900106330003063330019999900106331003066020039999900106604001066010039999900106866003068690019999900106867003071260039999900107128001071250039999900107377003073800019999900107378003076230039999900107625001076220039999900107863003078640050809700508096003999990010832200308323005085420050854100399999001087520030875300508956005089550039999900109150003091510050924500509244003999990010933600309337005094270050942600399999001095130030951400509598005095970039999900109678003096790050975700509756003999990010983100309832005099020050990100399999001099660030996700510028005100270039999900110083003100840051013300599999029

/-- `pad_grid.npz`: `grid[1710, 0], grid[1710, 10], …, grid[1710, 5580]`. -/
def padGrid171 : Nat :=
  999990250501300704964007049630019999900104907001049080070484700704846001999990010478100104782007047120070471100199999001046360010463700704559007045580019999900104477001044780070439400704393001999990010430600104307007042170070421600199999001041240010412500704031007040300019999900103835001038360070363300703632001999990010342100103422007032030070320200199999001029760010297700702744007027430019999900102502001025050030250400202503002022580020225900202260003022570019999900102005001020080030200700202006002017470020174800201749003017460019999900101481001014840030148300201482002012110020121200201213003012100019999900100932001009350030093400200933002006480020064900200650003006470019999900100356001003590030035800200357002000600020006100200062003000590019999900105179001051820030518100205180002054770020547800205479003054760019999900105767001057700030576900205768002060530020605400206055003060520019999900106330001063330030633200206331002066020020660300206604003066010019999900106866001068690030686800206867002071260020712700207128003071250019999900107377001073800030737900207378002076230020762400207625003076220019999900107863001078640070809700708096001999990010832200108323007085420070854100199999001087520010875300708956007089550019999900109150001091510070924500709244001999990010933600109337007094270070942600199999001095130010951400709598007095970019999900109678001096790070975700709756001999990010983100109832007099020070990100199999001099660010996700710028007100270019999900110083001100840071013300799999027

/-- `pad_grid.npz`: `grid[1720, 0], grid[1720, 10], …, grid[1720, 5580]`. -/
def padGrid172 : Nat :=
  999990240501300804964008999990010490800804847008999990010478200804712008999990010463700804559008999990010447800804394008999990010430700804217008999990010412500804031008999990010383600803633008999990010342200803203008999990010297700802744008999990010250500402504004022590040226000499999001020080040200700401748004017490049999900101484004014830040121200401213004999990010093500400934004006490040065000499999001003590040035800400061004000620049999900105182004051810040547800405479004999990010577000405769004060540040605500499999001063330040633200406603004066040049999900106869004068680040712700407128004999990010738000407379004076240040762500499999001078640080809700899999001083230080854200899999001087530080895600899999001091510080924500899999001093370080942700899999001095140080959800899999001096790080975700899999001098320080990200899999001099670081002800899999001100840081013300899999026

/-- `pad_grid.npz`: `grid[1730, 0], grid[1730, 10], …, grid[1730, 5580]`. -/
def padGrid173 : Nat :=
  9999902405014001050130070496400704965001999990010490900104908007048470070484800199999001047830010478200704712007047130019999900104638001046370070455900704560001999990010447900104478007043940070439500199999001043080010430700704217007042180019999900104126001041250070403100704032001999990010383700103836007036330070363400199999001034230010342200703203007032040019999900102978001029770070274400702745001999990010250700102505003025040020250600202261002022590020226000302262001999990010201000102008003020070020200900201750002017480020174900301751001999990010148600101484003014830020148500201214002012120020121300301215001999990010093700100935003009340020093600200651002006490020065000300652001999990010036100100359003003580020036000200063002000610020006200300064001999990010518400105182003051810020518300205480002054780020547900305481001999990010577200105770003057690020577100206056002060540020605500306057001999990010633500106333003063320020633400206605002066030020660400306606001999990010687100106869003068680020687000207129002071270020712800307130001999990010738200107380003073790020738100207626002076240020762500307627001999990010786500107864007080970070809800199999001083240010832300708542007085430019999900108754001087530070895600708957001999990010915200109151007092450070924600199999001093380010933700709427007094280019999900109515001095140070959800709599001999990010968000109679007097570070975800199999001098330010983200709902007099030019999900109968001099670071002800710029001999990011008500110084007101330071013400199999026

/-- `pad_grid.npz`: `grid[1740, 0], grid[1740, 10], …, grid[1740, 5580]`. -/
def padGrid174 : Nat :=
  9999902405014003050130050496400504965003999990010490900304908005048470050484800399999001047830030478200504712005047130039999900104638003046370050455900504560003999990010447900304478005043940050439500399999001043080030430700504217005042180039999900104126003041250050403100504032003999990010383700303836005036330050363400399999001034230030342200503203005032040039999900102978003029770050274400502745003999990010250700302505001999990010250600302261003999990010226000102262003999990010201000302008001999990010200900301750003999990010174900101751003999990010148600301484001999990010148500301214003999990010121300101215003999990010093700300935001999990010093600300651003999990010065000100652003999990010036100300359001999990010036000300063003999990010006200100064003999990010518400305182001999990010518300305480003999990010547900105481003999990010577200305770001999990010577100306056003999990010605500106057003999990010633500306333001999990010633400306605003999990010660400106606003999990010687100306869001999990010687000307129003999990010712800107130003999990010738200307380001999990010738100307626003999990010762500107627003999990010786500307864005080970050809800399999001083240030832300508542005085430039999900108754003087530050895600508957003999990010915200309151005092450050924600399999001093380030933700509427005094280039999900109515003095140050959800509599003999990010968000309679005097570050975800399999001098330030983200509902005099030039999900109968003099670051002800510029003999990011008500310084005101330051013400399999026

/-- `pad_grid.npz`: `grid[1750, 0], grid[1750, 10], …, grid[1750, 5580]`. -/
def padGrid175 : Nat :=
  999990240501400505013003049640030496500599999001049090050490800304847003048480059999900104783005047820030471200304713005999990010463800504637003045590030456000599999001044790050447800304394003043950059999900104308005043070030421700304218005999990010412600504125003040310030403200599999001038370050383600303633003036340059999900103423005034220030320300303204005999990010297800502977003027440030274700102746001027450039999900102507003025080010250900102506003022610030226400102263001022620039999900102010003020110010201200102009003017500030175300101752001017510039999900101486003014870010148800101485003012140030121700101216001012150039999900100937003009380010093900100936003006510030065400100653001006520039999900100361003003620010036300100360003000630030006600100065001000640039999900105184003051850010518600105183003054800030548300105482001054810039999900105772003057730010577400105771003060560030605900106058001060570039999900106335003063360010633700106334003066050030660800106607001066060039999900106871003068720010687300106870003071290030713200107131001071300039999900107382003073830010738400107381003076260030762900107628001076270039999900107865003078660010786700107864003080970030809800599999001083240050832300308542003085430059999900108754005087530030895600308957005999990010915200509151003092450030924600599999001093380050933700309427003094280059999900109515005095140030959800309599005999990010968000509679003097570030975800599999001098330050983200309902003099030059999900109968005099670031002800310029005999990011008500510084003101330031013400599999026

/-- `pad_grid.npz`: `grid[1760, 0], grid[1760, 10], …, grid[1760, 5580]`. -/
def padGrid176 : Nat :=
  9999902405014006050130020496400199999001049650069999900104909006049080020484700199999001048480069999900104783006047820020471200199999001047130069999900104638006046370020455900199999001045600069999900104479006044780020439400199999001043950069999900104308006043070020421700199999001042180069999900104126006041250020403100199999001040320069999900103837006038360020363300199999001036340069999900103423006034220020320300199999001032040069999900102978006029770020274400199999001027470020274600302745001999990010250700102508003025090020250600202261001999990010226400202263003022620019999900102010001020110030201200202009002017500019999900101753002017520030175100199999001014860010148700301488002014850020121400199999001012170020121600301215001999990010093700100938003009390020093600200651002006540020065300300652001999990010036100100362003003630020036000200063002000660020006500300064001999990010518400105185003051860020518300205480002054830020548200305481001999990010577200105773003057740020577100206056002060590020605800306057001999990010633500106336003063370029999900106334001066050020660800206607003066060019999900106871001068720030687300299999001068700010712900207132002071310030713000199999001073820010738300307384002999990010738100107626002076290020762800307627001999990010786500107866003078670029999900107864001080970020809800699999001083240069999900108323001085420020854300699999001087540069999900108753001089560020895700699999001091520069999900109151001092450020924600699999001093380069999900109337001094270020942800699999001095150069999900109514001095980020959900699999001096800069999900109679001097570020975800699999001098330069999900109832001099020020990300699999001099680069999900109967001100280021002900699999001100850069999900110084001101330021013400699999026

/-- `pad_grid.npz`: `grid[1770, 0], grid[1770, 10], …, grid[1770, 5580]`. -/
def padGrid177 : Nat :=
  9999902405014008049650089999900104909008048480089999900104783008047130089999900104638008045600089999900104479008043950089999900104308008042180089999900104126008040320089999900103837008036340089999900103423008032040089999900102978008027470040274600499999001025080040250900402264004022630049999900102011004020120040175300401752004999990010148700401488004012170040121600499999001009380040093900400654004006530049999900100362004003630040006600400065004999990010518500405186004054830040548200499999001057730040577400406059004060580049999900106336004063370040660800406607004999990010687200406873004071320040713100499999001073830040738400407629004076280049999900107866004078670040809800899999001083240080854300899999001087540080895700899999001091520080924600899999001093380080942800899999001095150080959900899999001096800080975800899999001098330080990300899999001099680081002900899999001100850081013400899999026

/-- `pad_grid.npz`: `grid[1780, 0], grid[1780, 10], …, grid[1780, 5580]`. -/
def padGrid178 : Nat :=
  999990240501400605015002049660020496500699999001049090060491000204849002048480069999900104783006047840020471400204713006999990010463800604639002045610020456000699999001044790060448000204396002043950069999900104308006043090020421900204218006999990010412600604127002040330020403200699999001038370060383800203635002036340069999900103423006034240020320500203204006999990010297800602979002027490020274700202746003027480019999900102510001025080030250900202511002022660020226400202263003022650019999900102013001020110030201200202014002017550020175300201752003017540019999900101489001014870030148800201490002012190020121700201216003012180019999900100940001009380030093900200941002006560020065400200653003006550019999900100364001003620030036300200365002000680020006600200065003000670019999900105187001051850030518600205188002054850020548300205482003054840019999900105775001057730030577400205776002060610020605900206058003060600019999900106338001063360030633700206339002066100020660800206607003066090019999900106874001068720030687300206875002071340020713200207131003071330019999900107385001073830030738400207386002076310020762900207628003076300019999900107868001078660030786700207869002080990020809800699999001083240060832500208544002085430069999900108754006087550020895800208957006999990010915200609153002092470020924600699999001093380060933900209429002094280069999900109515006095160020960000209599006999990010968000609681002097590020975800699999001098330060983400209904002099030069999900109968006099690021003000210029006999990011008500610086002101350021013400699999026

/-- `pad_grid.npz`: `grid[1790, 0], grid[1790, 10], …, grid[1790, 5580]`. -/
def padGrid179 : Nat :=
  99999024050140040501500404966003999990010496500499999001049090040491000404849003999990010484800499999001047830040478400404714003999990010471300499999001046380040463900404561003999990010456000499999001044790040448000404396003999990010439500499999001043080040430900404219003999990010421800499999001041260040412700404033003999990010403200499999001038370040383800403635003999990010363400499999001034230040342400403205003999990010320400499999001029780040297900402749003999990010274600102748003999990010251000302508001025110040226600399999001022630010226500399999001020130030201100199999001020140030175500399999001017520010175400399999001014890030148700199999001014900030121900399999001012160010121800399999001009400030093800199999001009410030065600399999001006530010065500399999001003640030036200199999001003650030006800399999001000650010006700399999001051870030518500199999001051880030548500399999001054820010548400399999001057750030577300199999001057760030606100399999001060580010606000399999001063380030633600199999001063390030661000399999001066070010660900399999001068740030687200199999001068750030713400399999001071310010713300399999001073850030738300199999001073860030763100407628001076300039999900107868003078660019999900107869003080990040809800499999001083240049999900108325003085440040854300499999001087540049999900108755003089580040895700499999001091520049999900109153003092470040924600499999001093380049999900109339003094290040942800499999001095150049999900109516003096000040959900499999001096800049999900109681003097590040975800499999001098330049999900109834003099040040990300499999001099680049999900109969003100300041002900499999001100850049999900110086003101350041013400499999026

/-- `pad_grid.npz`: `grid[1800, 0], grid[1800, 10], …, grid[1800, 5580]`. -/
def padGrid180 : Nat :=
  99999024050140030501500504966005049650039999900104909003049100050484900504848003999990010478300304784005047140050471300399999001046380030463900504561005045600039999900104479003044800050439600504395003999990010430800304309005042190050421800399999001041260030412700504033005040320039999900103837003038380050363500503634003999990010342300303424005032050050320400399999001029780030298100102980001029790030274900302750001027510010274800399999001025100030251300102512001025110030226600302267001022680010226500399999001020130030201600102015001020140030175500301756001017570010175400399999001014890030149200101491001014900030121900301220001012210010121800399999001009400030094300100942001009410030065600300657001006580010065500399999001003640030036700100366001003650030006800300069001000700010006700399999001051870030519000105189001051880030548500305486001054870010548400399999001057750030577800105777001057760030606100306062001060630010606000399999001063380030634100106340001063390030661000306611001066120010660900399999001068740030687700106876001068750030713400307135001071360010713300399999001073850030738800107387001073860030763100307632001076330010763000399999001078680030787100107870001078690030809900308100001081010010809800399999001083240030832500508544005085430039999900108754003087550050895800508957003999990010915200309153005092470050924600399999001093380030933900509429005094280039999900109515003095160050960000509599003999990010968000309681005097590050975800399999001098330030983400509904005099030039999900109968003099690051003000510029003999990011008500310086005101350051013400399999026

/-- `pad_grid.npz`: `grid[1810, 0], grid[1810, 10], …, grid[1810, 5580]`. -/
def padGrid181 : Nat :=
  99999024050140010501500704966007049650019999900104909001049100070484900704848001999990010478300104784007047140070471300199999001046380010463900704561007045600019999900104479001044800070439600704395001999990010430800104309007042190070421800199999001041260010412700704033007040320019999900103837001038380070363500703634001999990010342300103424007032050070320400199999001029780010298100302980002999990010297900102749001999990010275000202751003027480019999900102510001025130030251200299999001025110010226600199999001022670020226800302265001999990010201300102016003020150029999900102014001017550019999900101756002017570030175400199999001014890010149200301491002999990010149000101219001999990010122000201221003012180019999900100940001009430030094200299999001009410010065600199999001006570020065800300655001999990010036400100367003003660029999900100365001000680019999900100069002000700030006700199999001051870010519000305189002999990010518800105485001999990010548600205487003054840019999900105775001057780030577700299999001057760010606100199999001060620020606300306060001999990010633800106341003063400029999900106339001066100019999900106611002066120030660900199999001068740010687700306876002999990010687500107134001999990010713500207136003071330019999900107385001073880030738700299999001073860010763100199999001076320020763300307630001999990010786800107871003078700029999900107869001080990019999900108100002081010030809800199999001083240010832500708544007085430019999900108754001087550070895800708957001999990010915200109153007092470070924600199999001093380010933900709429007094280019999900109515001095160070960000709599001999990010968000109681007097590070975800199999001098330010983400709904007099030019999900109968001099690071003000710029001999990011008500110086007101350071013400199999026

/-- `pad_grid.npz`: `grid[1820, 0], grid[1820, 10], …, grid[1820, 5580]`. -/
def padGrid182 : Nat :=
  99999024050150080496600899999001049100080484900899999001047840080471400899999001046390080456100899999001044800080439600899999001043090080421900899999001041270080403300899999001038380080363500899999001034240080320500899999001029810040298000402750004027510049999900102513004025120040226700402268004999990010201600402015004017560040175700499999001014920040149100401220004012210049999900100943004009420040065700400658004999990010036700400366004000690040007000499999001051900040518900405486004054870049999900105778004057770040606200406063004999990010634100406340004066110040661200499999001068770040687600407135004071360049999900107388004073870040763200407633004999990010787100407870004081000040810100499999001083250080854400899999001087550080895800899999001091530080924700899999001093390080942900899999001095160080960000899999001096810080975900899999001098340080990400899999001099690081003000899999001100860081013500899999026

/-- `pad_grid.npz`: `grid[1830, 0], grid[1830, 10], …, grid[1830, 5580]`. -/
def padGrid183 : Nat :=
  99999024050160019999900105015006049660069999900104967001999990010491100199999001049100060484900699999001048500019999900104785001999990010478400604714006999990010471500199999001046400019999900104639006045610069999900104562001999990010448100199999001044800060439600699999001043970019999900104310001999990010430900604219006999990010422000199999001041280019999900104127006040330069999900104034001999990010383900199999001038380060363500699999001036360019999900103425001999990010342400603205006999990010320600199999001029830019999900102981002029800020298200202752002027500020275100299999001027530019999900102515001999990010251300202512002025140020226900202267002022680029999900102270001999990010201800199999001020160020201500202017002017580020175600201757002999990010175900199999001014940019999900101492002014910020149300201222002012200020122100299999001012230019999900100945001999990010094300200942002009440020065900200657002006580029999900100660001999990010036900199999001003670020036600200368002000710020006900200070002999990010007200199999001051920019999900105190002051890020519100205488002054860020548700299999001054890019999900105780001999990010577800205777002057790020606400206062002060630029999900106065001999990010634300199999001063410020634000206342002066130020661100206612002999990010661400199999001068790019999900106877002068760020687800207137002071350020713600299999001071380019999900107390001999990010738800207387002073890020763400207632002076330029999900107635001999990010787300199999001078710020787000207872002081020020810000208101002999990010810300199999001083260019999900108325006085440069999900108545001999990010875600199999001087550060895800699999001089590019999900109154001999990010915300609247006999990010924800199999001093400019999900109339006094290069999900109430001999990010951700199999001095160060960000699999001096010019999900109682001999990010968100609759006999990010976000199999001098350019999900109834006099040069999900109905001999990010997000199999001099690061003000699999001100310019999900110087001999990011008600610135006999990011013600199999026

/-- `pad_grid.npz`: `grid[1840, 0], grid[1840, 10], …, grid[1840, 5580]`. -/
def padGrid184 : Nat :=
  99999024050160030501500504966005049670039999900104911003049100050484900504850003999990010478500304784005047140050471500399999001046400030463900504561005045620039999900104481003044800050439600504397003999990010431000304309005042190050422000399999001041280030412700504033005040340039999900103839003038380050363500503636003999990010342500303424005032050050320600399999001029830030298100102982004027520040275100102753003999990010251500302513001025140040226900402268001022700039999900102018003020160010201700401758004017570010175900399999001014940030149200101493004012220040122100101223003999990010094500300943001009440040065900400658001006600039999900100369003003670010036800400071004000700010007200399999001051920030519000105191004054880040548700105489003999990010578000305778001057790040606400406063001060650039999900106343003063410010634200406613004066120010661400399999001068790030687700106878004071370040713600107138003999990010739000307388001073890040763400407633001076350039999900107873003078710010787200408102004081010010810300399999001083260030832500508544005085450039999900108756003087550050895800508959003999990010915400309153005092470050924800399999001093400030933900509429005094300039999900109517003095160050960000509601003999990010968200309681005097590050976000399999001098350030983400509904005099050039999900109970003099690051003000510031003999990011008700310086005101350051013600399999026

/-- `pad_grid.npz`: `grid[1850, 0], grid[1850, 10], …, grid[1850, 5580]`. -/
def padGrid185 : Nat :=
  99999024050160050501500304966003049670059999900104911005049100030484900304850005999990010478500504784003047140030471500599999001046400050463900304561003045620059999900104481005044800030439600304397005999990010431000504309003042190030422000599999001041280050412700304033003040340059999900103839005038380030363500303636005999990010342500503424003032050030320800103207001999990010320600299999001029830029999900102984001029850010298200302752003027550010275400199999001027530029999900102515002999990010251600102517001025140030226900302272001022710019999900102270002999990010201800299999001020190010202000102017003017580030176100101760001999990010175900299999001014940029999900101495001014960010149300301222003012250010122400199999001012230029999900100945002999990010094600100947001009440030065900300662001006610019999900100660002999990010036900299999001003700010037100100368003000710030007400100073001999990010007200299999001051920029999900105193001051940010519100305488003054910010549000199999001054890029999900105780002999990010578100105782001057790030606400306067001060660019999900106065002999990010634300299999001063440010634500106342003066130030661600106615001999990010661400299999001068790029999900106880001068810010687800307137003071400010713900199999001071380029999900107390002999990010739100107392001073890030763400307637001076360019999900107635002999990010787300299999001078740010787500107872003081020030810500108104001999990010810300299999001083260029999900108327001083280010832500308544003085450059999900108756005087550030895800308959005999990010915400509153003092470030924800599999001093400050933900309429003094300059999900109517005095160030960000309601005999990010968200509681003097590030976000599999001098350050983400309904003099050059999900109970005099690031003000310031005999990011008700510086003101350031013600599999026

/-- `pad_grid.npz`: `grid[1860, 0], grid[1860, 10], …, grid[1860, 5580]`. -/
def padGrid186 : Nat :=
  9999902405016007050150010496600104967007999990010491100704910001048490010485000799999001047850070478400104714001047150079999900104640007046390010456100104562007999990010448100704480001043960010439700799999001043100070430900104219001042200079999900104128007041270010403300104034007999990010383900703838001036350010363600799999001034250070342400103205001032080030320700303206001999990010298300102984003029850030298200102752001027550030275400302753001999990010251500102516003025170030251400102269001022720030227100302270001999990010201800102019003020200030201700101758001017610030176000301759001999990010149400101495003014960030149300101222001012250030122400301223001999990010094500100946003009470030094400100659001006620030066100300660001999990010036900100370003003710030036800100071001000740030007300300072001999990010519200105193003051940030519100105488001054910030549000305489001999990010578000105781003057820030577900106064001060670030606600306065001999990010634300106344003063450030634200106613001066160030661500306614001999990010687900106880003068810030687800107137001071400030713900307138001999990010739000107391003073920030738900107634001076370030763600307635001999990010787300107874003078750030787200108102001081050030810400308103001999990010832600108327003083280030832500108544001085450079999900108756007087550010895800108959007999990010915400709153001092470010924800799999001093400070933900109429001094300079999900109517007095160010960000109601007999990010968200709681001097590010976000799999001098350070983400109904001099050079999900109970007099690011003000110031007999990011008700710086001101350011013600799999026

/-- `pad_grid.npz`: `grid[1870, 0], grid[1870, 10], …, grid[1870, 5580]`. -/
def padGrid187 : Nat :=
  999990240501600799999002049670079999900104911007999990020485000799999001047850079999900204715007999990010464000799999002045620079999900104481007999990020439700799999001043100079999900204220007999990010412800799999002040340079999900103839007999990020363600799999001034250079999900203208003032070049999900102984004029850039999900202755003027540049999900102516004025170039999900202272003022710049999900102019004020200039999900201761003017600049999900101495004014960039999900201225003012240049999900100946004009470039999900200662003006610049999900100370004003710039999900200074003000730049999900105193004051940039999900205491003054900049999900105781004057820039999900206067003060660049999900106344004063450039999900206616003066150049999900106880004068810039999900207140003071390049999900107391004073920039999900207637003076360049999900107874004078750039999900208105003081040049999900108327004083280039999900208545007999990010875600799999002089590079999900109154007999990020924800799999001093400079999900209430007999990010951700799999002096010079999900109682007999990020976000799999001098350079999900209905007999990010997000799999002100310079999900110087007999990021013600799999026

/-- `pad_grid.npz`: `grid[1880, 0], grid[1880, 10], …, grid[1880, 5580]`. -/
def padGrid188 : Nat :=
  999990150505800299999007050160060501700204968002049670069999900104911006049120020485100204850006999990010478500604786002047160020471500699999001046400060464100204563002045620069999900104481006044820020439800204397006999990010431000604311002042210020422000699999001041280060412900204035002040340069999900103839006038400020363700203636006999990010342500603426002032100020320800203207002032090029999900102986002029840020298500202987002027570020275500202754002027560029999900102518002025160020251700202519002022740020227200202271002022730029999900102021002020190020202000202022002017630020176100201760002017620029999900101497002014950020149600201498002012270020122500201224002012260029999900100948002009460020094700200949002006640020066200200661002006630029999900100372002003700020037100200373002000760020007400200073002000750029999900105195002051930020519400205196002054930020549100205490002054920029999900105783002057810020578200205784002060690020606700206066002060680029999900106346002063440020634500206347002066180020661600206615002066170029999900106882002068800020688100206883002071420020714000207139002071410029999900107393002073910020739200207394002076390020763700207636002076380029999900107876002078740020787500207877002081070020810500208104002081060029999900108329002083270020832800208330002085460020854500699999001087560060875700208960002089590069999900109154006091550020924900209248006999990010934000609341002094310020943000699999001095170060951800209602002096010069999900109682006096830020976100209760006999990010983500609836002099060020990500699999001099700060997100210032002100310069999900110087006100880021013700210136006999990071017800299999017

/-- `pad_grid.npz`: `grid[1890, 0], grid[1890, 10], …, grid[1890, 5580]`. -/
def padGrid189 : Nat :=
  99999015050580049999900505016004050170040496800404967004999990010491100404912004048510040485000499999001047850040478600404716004047150049999900104640004046410040456300404562004999990010448100404482004043980040439700499999001043100040431100404221004042200049999900104128004041290040403500404034004999990010383900403840004036370040363600499999001034250040342600403210004999990010320900399999001029860030298400102987004027570049999900102756003999990010251800302516001025190040227400499999001022730039999900102021003020190010202200401763004999990010176200399999001014970039999900101498004012270049999900101226003999990010094800399999001009490040066400499999001006630039999900100372003999990010037300400076004999990010007500399999001051950039999900105196004054930049999900105492003999990010578300399999001057840040606900499999001060680039999900106346003999990010634700406618004999990010661700399999001068820039999900106883004071420040713900107141003999990010739300399999001073940040763900407636001076380039999900107876003999990010787700408107004081040010810600399999001083290039999900108330004085460040854500499999001087560040875700408960004089590049999900109154004091550040924900409248004999990010934000409341004094310040943000499999001095170040951800409602004096010049999900109682004096830040976100409760004999990010983500409836004099060040990500499999001099700040997100410032004100310049999900110087004100880041013700410136004999990051017800499999017

/-- `pad_grid.npz`: `grid[1900, 0], grid[1900, 10], …, grid[1900, 5580]`. -/
def padGrid190 : Nat :=
  99999015050580059999900405016002050170060496800604967002999990010491100204912006048510060485000299999001047850020478600604716006047150029999900104640002046410060456300604562002999990010448100204482006043980060439700299999001043100020431100604221006042200029999900104128002041290060403500604034002999990010383900203840006036370060363600299999001034250020342800203427001034260030321000303211001032120020320900299999001029860020298900202988001029870030275700302758001027590020275600299999001025180020252100202520001025190030227400302275001022760020227300299999001020210020202400202023001020220030176300301764001017650020176200299999001014970020150000201499001014980030122700301228001012290020122600299999001009480020095100200950001009490030066400300665001006660020066300299999001003720020037500200374001003730030007600300077001000780020007500299999001051950020519800205197001051960030549300305494001054950020549200299999001057830020578600205785001057840030606900306070001060710020606800299999001063460020634900206348001063470030661800306619001066200020661700299999001068820020688500206884001068830030714200307143001071440020714100299999001073930020739600207395001073940030763900307640001076410020763800299999001078760020787900207878001078770030810700308108001081090020810600299999001083290020833200208331001083300030854600308547001085480020854500299999001087560020875700608960006089590029999900109154002091550060924900609248002999990010934000209341006094310060943000299999001095170020951800609602006096010029999900109682002096830060976100609760002999990010983500209836006099060060990500299999001099700020997100610032006100310029999900110087002100880061013700610136002999990041017800599999017

/-- `pad_grid.npz`: `grid[1910, 0], grid[1910, 10], …, grid[1910, 5580]`. -/
def padGrid191 : Nat :=
  999990150505800799999003050170070496800704967001999990020491200704851007048500019999900204786007047160070471500199999002046410070456300704562001999990020448200704398007043970019999900104310001043110070422100704220001999990010412800104129007040350070403400199999001038390010384000703637007036360019999900103425001034280030342700303426001032100010321100303212003032090019999900102986001029890030298800302987001027570010275800302759003027560019999900102518001025210030252000302519001022740010227500302276003022730019999900102021001020240030202300302022001017630010176400301765003017620019999900101497001015000030149900301498001012270010122800301229003012260019999900100948001009510030095000300949001006640010066500300666003006630019999900100372001003750030037400300373001000760010007700300078003000750019999900105195001051980030519700305196001054930010549400305495003054920019999900105783001057860030578500305784001060690010607000306071003060680019999900106346001063490030634800306347001066180010661900306620003066170019999900106882001068850030688400306883001071420010714300307144003071410019999900107393001073960030739500307394001076390010764000307641003076380019999900107876001078790030787800307877001081070010810800308109003081060019999900108329001083320030833100308330001085460010854700308548003085450019999900108756001087570070896000708959001999990010915400109155007092490070924800199999001093400010934100709431007094300019999900109517001095180070960200799999002096820010968300709761007999990020983500109836007099060079999900209970001099710071003200799999002100870011008800710137007999990031017800799999017

/-- `pad_grid.npz`: `grid[1920, 0], grid[1920, 10], …, grid[1920, 5580]`. -/
def padGrid192 : Nat :=
  99999015050580089999900105017008049680089999900104912008048510089999900104786008047160089999900104641008045630089999900104482008043980089999900104311008042210089999900104129008040350089999900103840008036370089999900103428004034270030342900199999001032110030321200499999001029890040298800302990001999990010275800302759004999990010252100402520003025220019999900102275003022760049999900102024004020230030202500199999001017640030176500499999001015000040149900301501001999990010122800301229004999990010095100400950003009520019999900100665003006660049999900100375004003740030037600100079001000770030007800499999001051980040519700305199001054960010549400305495004999990010578600405785003999990010607200106070003060710049999900106349004063480039999900106621001066190030662000499999001068850040688400399999001071450010714300307144004999990010739600407395003999990010764200107640003076410049999900107879004078780039999900108110001081080030810900499999001083320040833100399999001085490010854700308548004999990010875700808960008999990010915500809249008999990010934100809431008999990010951800809602008999990010968300809761008999990010983600809906008999990010997100810032008999990011008800810137008999990011017800899999017

/-- `pad_grid.npz`: `grid[1930, 0], grid[1930, 10], …, grid[1930, 5580]`. -/
def padGrid193 : Nat :=
  999990150505800605059002999990010501800205017006049680060496900299999001049130020491200604851006048520029999900104787002047860060471600604717002999990010464200204641006045630060456400299999001044830020448200604398006043990029999900104312002043110060422100604222002999990010413000204129006040350060403600299999001038410020384000603637006036380029999900103430002034280020342700203429002032130020321100203212002032140029999900102991002029890020298800202990002027600020275800202759002027610029999900102523002025210020252000202522002022770020227500202276002022780029999900102026002020240020202300202025002017660020176400201765002017670029999900101502002015000020149900201501002012300020122800201229002012310029999900100953002009510020095000200952002006670020066500200666002006680029999900100377002003750020037400200376002000790020007700200078002000800029999900105200002051980020519700205199002054960020549400205495002054970029999900105788002057860020578500205787002060720020607000206071002060730029999900106351002063490020634800206350002066210020661900206620002066220029999900106887002068850020688400206886002071450020714300207144002071460029999900107398002073960020739500207397002076420020764000207641002076430029999900107881002078790020787800207880002081100020810800208109002081110029999900108334002083320020833100208333002085490020854700208548002085500029999900108758002087570060896000608961002999990010915600209155006092490060925000299999001093420020934100609431006094320029999900109519002095180060960200609603002999990010968400209683006097610060976200299999001098370020983600609906006099070029999900109972002099710061003200610033002999990011008900210088006101370061013800299999001101790021017800699999017

/-- `pad_grid.npz`: `grid[1940, 0], grid[1940, 10], …, grid[1940, 5580]`. -/
def padGrid194 : Nat :=
  9999901505058004050590049999900105018003999990010501700404968004049690049999900104913003999990010491200404851004999990010485200399999001047870039999900104786004047160049999900104717003999990010464200399999001046410040456300499999001045640039999900104483003999990010448200404398004999990010439900399999001043120039999900104311004042210049999900104222003999990010413000399999001041290040403500499999001040360039999900103841003999990010384000403637004999990010363800399999001034300039999900103429004032130049999900103214003999990010299100399999001029900040276000499999001027610039999900102523003999990010252200402277004999990010227800399999001020260039999900102025004017660049999900101767003999990010150200399999001015010040123000499999001012310039999900100953003999990010095200400667004999990010066800399999001003770039999900100376004000790049999900100080003999990010520000399999001051990040549600499999001054970039999900105788003999990010578700406072004999990010607300399999001063510039999900106350004066210049999900106622003999990010688700399999001068860040714500499999001071460039999900107398003999990010739700407642004999990010764300399999001078810039999900107880004081100049999900108111003999990010833400399999001083330040854900499999001085500039999900108758003999990010875700408960004999990010896100399999001091560039999900109155004092490049999900109250003999990010934200399999001093410040943100499999001094320039999900109519003999990010951800409602004999990010960300399999001096840039999900109683004097610049999900109762003999990010983700399999001098360040990600499999001099070039999900109972003999990010997100410032004999990011003300399999001100890041008800410137004999990011013800399999001101790041017800499999017

/-- `pad_grid.npz`: `grid[1950, 0], grid[1950, 10], …, grid[1950, 5580]`. -/
def padGrid195 : Nat :=
  99999015050580030505900599999001050180050501700304968003049690059999900104913005049120030485100304852005999990010478700504786003047160030471700599999001046420050464100304563003045640059999900104483005044820030439800304399005999990010431200504311003042210030422200599999001041300050412900304035003040360059999900103841005038400030363700303640001036390020363800299999001034300020343100203432001034290030321300303216001032150020321400299999001029910020299200202993001029900030276000302763001027620020276100299999001025230020252400202525001025220030227700302280001022790020227800299999001020260020202700202028001020250030176600301769001017680020176700299999001015020020150300201504001015010030123000301233001012320020123100299999001009530020095400200955001009520030066700300670001006690020066800299999001003770020037800200379001003760030007900300082001000810020008000299999001052000020520100205202001051990030549600305499001054980020549700299999001057880020578900205790001057870030607200306075001060740020607300299999001063510020635200206353001063500030662100306624001066230020662200299999001068870020688800206889001068860030714500307148001071470020714600299999001073980020739900207400001073970030764200307645001076440020764300299999001078810020788200207883001078800030811000308113001081120020811100299999001083340020833500208336001083330030854900308552001085510020855000299999001087580020875900208760001087570030896000308961005999990010915600509155003092490030925000599999001093420050934100309431003094320059999900109519005095180030960200309603005999990010968400509683003097610030976200599999001098370050983600309906003099070059999900109972005099710031003200310033005999990011008900510088003101370031013800599999001101790051017800399999017

/-- `pad_grid.npz`: `grid[1960, 0], grid[1960, 10], …, grid[1960, 5580]`. -/
def padGrid196 : Nat :=
  99999015050580010505900799999001050180070501700104968001049690079999900104913007049120010485100104852007999990010478700704786001047160010471700799999001046420070464100104563001045640079999900104483007044820010439800104399007999990010431200704311001042210010422200799999001041300070412900104035001040360079999900103841007038400010363700103640003036390039999900303431003034320030342900103213001032160030321500399999003029920030299300302990001027600010276300302762003999990030252400302525003025220010227700102280003022790039999900302027003020280030202500101766001017690030176800399999003015030030150400301501001012300010123300301232003999990030095400300955003009520010066700100670003006690039999900300378003003790030037600100079001000820030008100399999003052010030520200305199001054960010549900305498003999990030578900305790003057870010607200106075003060740039999900306352003063530030635000106621001066240030662300399999003068880030688900306886001071450010714800307147003999990030739900307400003073970010764200107645003076440039999900307882003078830030788000108110001081130030811200399999003083350030833600308333001085490010855200308551003999990030875900308760003087570010896000108961007999990010915600709155001092490010925000799999001093420070934100109431001094320079999900109519007095180010960200109603007999990010968400709683001097610010976200799999001098370070983600109906001099070079999900109972007099710011003200110033007999990011008900710088001101370011013800799999001101790071017800199999017

/-- `pad_grid.npz`: `grid[1970, 0], grid[1970, 10], …, grid[1970, 5580]`. -/
def padGrid197 : Nat :=
  99999015050600010505900799999001050180070501900104970001049690079999900104913007049140010485300104852007999990010478700704788001047180010471700799999001046420070464300104565001045640079999900104483007044840010440000104399007999990010431200704313001042230010422200799999001041300070413100104037001040360079999900103841007038420010364200103640003036390049999900103431004034320030343400103218001032160030321500499999001029920040299300302995001027650010276300302762004999990010252400402525003025270010228200102280003022790049999900102027004020280030203000101771001017690030176800499999001015030040150400301506001012350010123300301232004999990010095400400955003009570010067200100670003006690049999900100378004003790030038100100084001000820030008100499999001052010040520200305204001055010010549900305498004999990010578900405790003057920010607700106075003060740049999900106352004063530030635500106626001066240030662300499999001068880040688900306891001071500010714800307147004999990010739900407400003074020010764700107645003076440049999900107882004078830030788500108115001081130030811200499999001083350040833600308338001085540010855200308551004999990010875900408760003087620010896200108961007999990010915600709157001092510010925000799999001093420070934300109433001094320079999900109519007095200010960400109603007999990010968400709685001097630010976200799999001098370070983800109908001099070079999900109972007099730011003400110033007999990011008900710090001101390011013800799999001101790071018000199999017

/-- `pad_grid.npz`: `grid[1980, 0], grid[1980, 10], …, grid[1980, 5580]`. -/
def padGrid198 : Nat :=
  999990150506000299999001050590059999900105018005999990010501900204970002999990010496900599999001049130059999900104914002048530029999900104852005999990010478700599999001047880020471800299999001047170059999900104642005999990010464300204565002999990010456400599999001044830059999900104484002044000029999900104399005999990010431200599999001043130020422300299999001042220059999900104130005999990010413100204037002999990010403600599999001038410059999900103842002036420029999900103640001036390020364100299999001034330020343100203432001999990010343400203218002999990010321600103215002032170029999900102994002029920020299300199999001029950020276500299999001027630010276200202764002999990010252600202524002025250019999900102527002022820029999900102280001022790020228100299999001020290020202700202028001999990010203000201771002999990010176900101768002017700029999900101505002015030020150400199999001015060020123500299999001012330010123200201234002999990010095600200954002009550019999900100957002006720029999900100670001006690020067100299999001003800020037800200379001999990010038100200084002999990010008200100081002000830029999900105203002052010020520200199999001052040020550100299999001054990010549800205500002999990010579100205789002057900019999900105792002060770029999900106075001060740020607600299999001063540020635200206353001999990010635500206626002999990010662400106623002066250029999900106890002068880020688900199999001068910020715000299999001071480010714700207149002999990010740100207399002074000019999900107402002076470029999900107645001076440020764600299999001078840020788200207883001999990010788500208115002999990010811300108112002081140029999900108337002083350020833600199999001083380020855400299999001085520010855100208553002999990010876100208759002087600019999900108762002089620029999900108961005999990010915600599999001091570020925100299999001092500059999900109342005999990010934300209433002999990010943200599999001095190059999900109520002096040029999900109603005999990010968400599999001096850020976300299999001097620059999900109837005999990010983800209908002999990010990700599999001099720059999900109973002100340029999900110033005999990011008900599999001100900021013900299999001101380059999900110179005999990011018000299999017

/-- `pad_grid.npz`: `grid[1990, 0], grid[1990, 10], …, grid[1990, 5580]`. -/
def padGrid199 : Nat :=
  99999015050600040505900499999001050180040501900404970004049690049999900104913004049140040485300404852004999990010478700404788004047180040471700499999001046420040464300404565004045640049999900104483004044840040440000404399004999990010431200404313004042230040422200499999001041300040413100404037004040360049999900103841004038420040364200403641004999990010343300403434004032180040321700499999001029940040299500402765004027640049999900102526004025270040228200402281004999990010202900402030004017710040177000499999001015050040150600401235004012340049999900100956004009570040067200400671004999990010038000400381004000840040008300499999001052030040520400405501004055000049999900105791004057920040607700406076004999990010635400406355004066260040662500499999001068900040689100407150004071490049999900107401004074020040764700407646004999990010788400407885004081150040811400499999001083370040833800408554004085530049999900108761004087620040896200408961004999990010915600409157004092510040925000499999001093420040934300409433004094320049999900109519004095200040960400409603004999990010968400409685004097630040976200499999001098370040983800409908004099070049999900109972004099730041003400410033004999990011008900410090004101390041013800499999001101790041018000499999017

/-- `pad_grid.npz`: `grid[2000, 0], grid[2000, 10], …, grid[2000, 5580]`. -/
def padGrid200 : Nat :=
  99999015050600060505900299999001050180020501900604970006049690029999900104913002049140060485300604852002999990010478700204788006047180060471700299999001046420020464300604565006045640029999900104483002044840060440000604399002999990010431200204313006042230060422200299999001041300020413100604037006040360029999900103841002038440020384300199999001038420020364200299999001036430010364400203641002999990010343300203436002034350019999900103434002032180029999900103219001032200020321700299999001029940020299700202996001999990010299500202765002999990010276600102767002027640029999900102526002025290020252800199999001025270020228200299999001022830010228400202281002999990010202900202032002020310019999900102030002017710029999900101772001017730020177000299999001015050020150800201507001999990010150600201235002999990010123600101237002012340029999900100956002009590020095800199999001009570020067200299999001006730010067400200671002999990010038000200383002003820019999900100381002000840029999900100085001000860020008300299999001052030020520600205205001999990010520400205501002999990010550200105503002055000029999900105791002057940020579300199999001057920020607700299999001060780010607900206076002999990010635400206357002063560019999900106355002066260029999900106627001066280020662500299999001068900020689300206892001999990010689100207150002999990010715100107152002071490029999900107401002074040020740300199999001074020020764700299999001076480010764900207646002999990010788400207887002078860019999900107885002081150029999900108116001081170020811400299999001083370020834000208339001999990010833800208554002999990010855500108556002085530029999900108761002087640020876300199999001087620020896200299999001089630010896400208961002999990010915600209157006092510060925000299999001093420020934300609433006094320029999900109519002095200060960400609603002999990010968400209685006097630060976200299999001098370020983800609908006099070029999900109972002099730061003400610033002999990011008900210090006101390061013800299999001101790021018000699999017

/-- `pad_grid.npz`: `grid[2010, 0], grid[2010, 10], …, grid[2010, 5580]`. -/
def padGrid201 : Nat :=
  999990150506000899999001050190080497000899999001049140080485300899999001047880080471800899999001046430080456500899999001044840080440000899999001043130080422300899999001041310080403700899999001038440040384300303842001036420010364300303644004999990010343600403435003034340010321800103219003032200049999900102997004029960030299500102765001027660030276700499999001025290040252800302527001022820010228300302284004999990010203200402031003020300010177100101772003017730049999900101508004015070030150600101235001012360030123700499999001009590040095800300957001006720010067300300674004999990010038300400382003003810010008400100085003000860049999900105206004052050030520400105501001055020030550300499999001057940040579300305792001060770010607800306079004999990010635700406356003063550010662600106627003066280049999900106893004068920030689100107150001071510030715200499999001074040040740300307402001076470010764800307649004999990010788700407886003078850010811500108116003081170049999900108340004083390030833800108554001085550030855600499999001087640040876300308762001089620010896300308964004999990010915700809251008999990010934300809433008999990010952000809604008999990010968500809763008999990010983800809908008999990010997300810034008999990011009000810139008999990011018000899999017

/-- `pad_grid.npz`: `grid[2020, 0], grid[2020, 10], …, grid[2020, 5580]`. -/
def padGrid202 : Nat :=
  999990150506000799999002050190080497000799999002049140080485300799999002047880080471800799999002046430080456500799999002044840080440000799999002043130080422300799999002041310080403700799999003038440030384300303845001036450010364300303644003999990030343600303435003034370010322100103219003032200039999900302997003029960030299800102768001027660030276700399999003025290030252800302530001022850010228300302284003999990030203200302031003020330010177400101772003017730039999900301508003015070030150900101238001012360030123700399999003009590030095800300960001006750010067300300674003999990030038300300382003003840010008700100085003000860039999900305206003052050030520700105504001055020030550300399999003057940030579300305795001060800010607800306079003999990030635700306356003063580010662900106627003066280039999900306893003068920030689400107153001071510030715200399999003074040030740300307405001076500010764800307649003999990030788700307886003078880010811800108116003081170039999900308340003083390030834100108557001085550030855600399999003087640030876300308765001089650010896300308964003999990030915700709251008999990020934300709433008999990020952000709604008999990020968500709763008999990020983800709908008999990020997300710034008999990021009000710139008999990021018000799999017

/-- `pad_grid.npz`: `grid[2030, 0], grid[2030, 10], …, grid[2030, 5580]`. -/
def padGrid203 : Nat :=
  9999901505060006050610029999900105020002050190060497000604971002999990010491500204914006048530060485400299999001047890020478800604718006047190029999900104644002046430060456500604566002999990010448500204484006044000060440100299999001043140020431300604223006042240029999900104132002041310060403700604038002999990010384600203844002038430010384500303645003036430010364400203646002999990010343800203436002034350010343700303221003032190010322000203222002999990010299900202997002029960010299800302768003027660010276700202769002999990010253100202529002025280010253000302285003022830010228400202286002999990010203400202032002020310010203300301774003017720010177300201775002999990010151000201508002015070010150900301238003012360010123700201239002999990010096100200959002009580010096000300675003006730010067400200676002999990010038500200383002003820010038400300087003000850010008600200088002999990010520800205206002052050010520700305504003055020010550300205505002999990010579600205794002057930010579500306080003060780010607900206081002999990010635900206357002063560010635800306629003066270010662800206630002999990010689500206893002068920010689400307153003071510010715200207154002999990010740600207404002074030010740500307650003076480010764900207651002999990010788900207887002078860010788800308118003081160010811700208119002999990010834200208340002083390010834100308557003085550010855600208558002999990010876600208764002087630010876500308965003089630010896400208966002999990010915800209157006092510060925200299999001093440020934300609433006094340029999900109521002095200060960400609605002999990010968600209685006097630060976400299999001098390020983800609908006099090029999900109974002099730061003400610035002999990011009100210090006101390061014000299999001101810021018000699999017

/-- `pad_grid.npz`: `grid[2040, 0], grid[2040, 10], …, grid[2040, 5580]`. -/
def padGrid204 : Nat :=
  99999015050600040506100499999001050200040501900404970004049710049999900104915004049140040485300404854004999990010478900404788004047180040471900499999001046440040464300404565004045660049999900104485004044840040440000404401004999990010431400404313004042230040422400499999001041320040413100404037004040380049999900103846003999990010384500403645004036460049999900103438003999990010343700403221004032220049999900102999003999990010299800402768004027690049999900102531004025300040228500402286004999990010203400402033004017740040177500499999001015100040150900401238004012390049999900100961004009600040067500400676004999990010038500400384004000870040008800499999001052080040520700405504004055050049999900105796004057950040608000406081004999990010635900406358004066290040663000499999001068950040689400407153004071540049999900107406004074050040765000407651004999990010788900407888004081180049999900108119003999990010834200408341004085570049999900108558003999990010876600408765004089650049999900108966003999990010915800409157004092510040925200499999001093440040934300409433004094340049999900109521004095200040960400409605004999990010968600409685004097630040976400499999001098390040983800409908004099090049999900109974004099730041003400410035004999990011009100410090004101390041014000499999001101810041018000499999017

/-- `pad_grid.npz`: `grid[2050, 0], grid[2050, 10], …, grid[2050, 5580]`. -/
def padGrid205 : Nat :=
  99999015050600020506100699999001050200059999900105019002049700020497100699999001049150059999900104914002048530020485400699999001047890059999900104788002047180020471900699999001046440059999900104643002045650020456600699999001044850059999900104484002044000020440100699999001043140059999900104313002042230020422400699999001041320059999900104131002040370020403800699999001038460020384700203848001999990010384500203645002036480020364700203646002999990010343800203439002034400019999900103437002032210020322400203223002032220029999900102999002030000020300100199999001029980020276800202771002027700020276900299999001025310020253200202533002025300020228500202288002022870020228600299999001020340020203500202036002020330020177400201777002017760020177500299999001015100020151100201512002015090020123800201241002012400020123900299999001009610020096200200963002009600020067500200678002006770020067600299999001003850020038600200387002003840020008700200090002000890020008800299999001052080020520900205210002052070020550400205507002055060020550500299999001057960020579700205798002057950020608000206083002060820020608100299999001063590020636000206361002063580020662900206632002066310020663000299999001068950020689600206897002068940020715300207156002071550020715400299999001074060020740700207408002074050020765000207653002076520020765100299999001078890020789000207891002078880020811800299999001081210010812000208119002999990010834200208343002083440020834100208557002999990010856000108559002085580029999900108766002087670020876800208765002089650029999900108968001089670020896600299999001091580060915700209251002999990010925200599999001093440060934300209433002999990010943400599999001095210060952000209604002999990010960500599999001096860060968500209763002999990010976400599999001098390060983800209908002999990010990900599999001099740060997300210034002999990011003500599999001100910061009000210139002999990011014000599999001101810061018000299999017

/-- `pad_grid.npz`: `grid[2060, 0], grid[2060, 10], …, grid[2060, 5580]`. -/
def padGrid206 : Nat :=
  999990150506000105061007999990010502000705019001049700010497100799999001049150070491400104853001048540079999900104789007047880010471800104719007999990010464400704643001045650010456600799999001044850070448400104400001044010079999900104314007043130010422300104224007999990010413200704131001040370010403800799999001038470040384800303845001036450010364800303647004999990010343900403440003034370010322100103224003032230049999900103000004030010030299800102768001027710030277000499999001025320040253300302530001022850010228800302287004999990010203500402036003020330010177400101777003017760049999900101511004015120030150900101238001012410030124000499999001009620040096300300960001006750010067800300677004999990010038600400387003003840010008700100090003000890049999900105209004052100030520700105504001055070030550600499999001057970040579800305795001060800010608300306082004999990010636000406361003063580010662900106632003066310049999900106896004068970030689400107153001071560030715500499999001074070040740800307405001076500010765300307652004999990010789000407891003078880010811800108121003081200049999900108343004083440030834100108557001085600030855900499999001087670040876800308765001089650010896800308967004999990010915800709157001092510010925200799999001093440070934300109433001094340079999900109521007095200010960400109605007999990010968600709685001097630010976400799999001098390070983800109908001099090079999900109974007099730011003400110035007999990011009100710090001101390011014000799999001101810071018000199999017

/-- `pad_grid.npz`: `grid[2070, 0], grid[2070, 10], …, grid[2070, 5580]`. -/
def padGrid207 : Nat :=
  999990150506200105061007999990010502000705021001049720010497100799999001049150070491600104855001048540079999900104789007047900010472000104719007999990010464400704645001045670010456600799999001044850070448600104402001044010079999900104314007043150010422500104224007999990010413200704133001040390010403800799999002038470030384800303850001036500010364800303647003999990030343900303440003034420010322600103224003032230039999900303000003030010030300300102773001027710030277000399999003025320030253300302535001022900010228800302287003999990030203500302036003020380010177900101777003017760039999900301511003015120030151400101243001012410030124000399999003009620030096300300965001006800010067800300677003999990030038600300387003003890010009200100090003000890039999900305209003052100030521200105509001055070030550600399999003057970030579800305800001060850010608300306082003999990030636000306361003063630010663400106632003066310039999900306896003068970030689900107158001071560030715500399999003074070030740800307410001076550010765300307652003999990030789000307891003078930010812300108121003081200039999900308343003083440030834600108562001085600030855900399999003087670030876800308770001089700010896800308967003999990020915800709159001092530010925200799999001093440070934500109435001094340079999900109521007095220010960600109605007999990010968600709687001097650010976400799999001098390070984000109910001099090079999900109974007099750011003600110035007999990011009100710092001101410011014000799999001101810071018200199999017

/-- `pad_grid.npz`: `grid[2080, 0], grid[2080, 10], …, grid[2080, 5580]`. -/
def padGrid208 : Nat :=
  9999901505062003050610059999900105020005050210030497200304971005999990010491500504916003048550030485400599999001047890050479000304720003047190059999900104644005046450030456700304566005999990010448500504486003044020030440100599999001043140050431500304225003042240059999900104132005041330030403900304038005999990010384900203847002038480010385000303650003036480010364700203649002999990010344100203439002034400010344200303226003032240010322300203225002999990010300200203000002030010010300300302773003027710010277000202772002999990010253400202532002025330010253500302290003022880010228700202289002999990010203700202035002020360010203800301779003017770010177600201778002999990010151300201511002015120010151400301243003012410010124000201242002999990010096400200962002009630010096500300680003006780010067700200679002999990010038800200386002003870010038900300092003000900010008900200091002999990010521100205209002052100010521200305509003055070010550600205508002999990010579900205797002057980010580000306085003060830010608200206084002999990010636200206360002063610010636300306634003066320010663100206633002999990010689800206896002068970010689900307158003071560010715500207157002999990010740900207407002074080010741000307655003076530010765200207654002999990010789200207890002078910010789300308123003081210010812000208122002999990010834500208343002083440010834600308562003085600010855900208561002999990010876900208767002087680010877000308970003089680010896700208969002999990010915800509159003092530030925200599999001093440050934500309435003094340059999900109521005095220030960600309605005999990010968600509687003097650030976400599999001098390050984000309910003099090059999900109974005099750031003600310035005999990011009100510092003101410031014000599999001101810051018200399999017

/-- `pad_grid.npz`: `grid[2090, 0], grid[2090, 10], …, grid[2090, 5580]`. -/
def padGrid209 : Nat :=
  999990150506200499999001050610039999900105020003999990010502100404972004999990010497100399999001049150039999900104916004048550049999900104854003999990010478900399999001047900040472000499999001047190039999900104644003999990010464500404567004999990010456600399999001044850039999900104486004044020049999900104401003999990010431400399999001043150040422500499999001042240039999900104132003999990010413300404039004999990010403800399999001038490039999900103850004036500049999900103649003999990010344100399999001034420040322600499999001032250039999900103002003999990010300300402773004999990010277200399999001025340039999900102535004022900049999900102289003999990010203700399999001020380040177900499999001017780039999900101513003999990010151400401243004999990010124200399999001009640039999900100965004006800049999900100679003999990010038800399999001003890040009200499999001000910039999900105211003999990010521200405509004999990010550800399999001057990039999900105800004060850049999900106084003999990010636200399999001063630040663400499999001066330039999900106898003999990010689900407158004999990010715700399999001074090039999900107410004076550049999900107654003999990010789200399999001078930040812300499999001081220039999900108345003999990010834600408562004999990010856100399999001087690039999900108770004089700049999900108969003999990010915800399999001091590040925300499999001092520039999900109344003999990010934500409435004999990010943400399999001095210039999900109522004096060049999900109605003999990010968600399999001096870040976500499999001097640039999900109839003999990010984000409910004999990010990900399999001099740039999900109975004100360049999900110035003999990011009100399999001100920041014100499999001101400039999900110181003999990011018200499999017

/-- `pad_grid.npz`: `grid[2100, 0], grid[2100, 10], …, grid[2100, 5580]`. -/
def padGrid210 : Nat :=
  9999901505062006050610029999900105020002050210060497200604971002999990010491500204916006048550060485400299999001047890020479000604720006047190029999900104644002046450060456700604566002999990010448500204486006044020060440100299999001043140020431500604225006042240029999900104132002041330060403900604038002999990010384900203852002038510020385000203650002036510020365200203649002999990010344100203444002034430020344200203226002032270020322800203225002999990010300200203005002030040020300300202773002027740020277500202772002999990010253400202537002025360020253500202290002022910020229200202289002999990010203700202040002020390020203800201779002017800020178100201778002999990010151300201516002015150020151400201243002012440020124500201242002999990010096400200967002009660020096500200680002006810020068200200679002999990010038800200391002003900020038900200092002000930020009400200091002999990010521100205214002052130020521200205509002055100020551100205508002999990010579900205802002058010020580000206085002060860020608700206084002999990010636200206365002063640020636300206634002066350020663600206633002999990010689800206901002069000020689900207158002071590020716000207157002999990010740900207412002074110020741000207655002076560020765700207654002999990010789200207895002078940020789300208123002081240020812500208122002999990010834500208348002083470020834600208562002085630020856400208561002999990010876900208772002087710020877000208970002089710020897200208969002999990010915800209159006092530060925200299999001093440020934500609435006094340029999900109521002095220060960600609605002999990010968600209687006097650060976400299999001098390020984000609910006099090029999900109974002099750061003600610035002999990011009100210092006101410061014000299999001101810021018200699999017

/-- `pad_grid.npz`: `grid[2110, 0], grid[2110, 10], …, grid[2110, 5580]`. -/
def padGrid211 : Nat :=
  9999901505062008999990010502100804972008999990010491600804855008999990010479000804720008999990010464500804567008999990010448600804402008999990010431500804225008999990010413300804039008999990010385200403851003999990020365100303652004999990010344400403443003999990020322700303228004999990010300500403004003999990020277400302775004999990010253700402536003999990020229100302292004999990010204000402039003999990020178000301781004999990010151600401515003999990020124400301245004999990010096700400966003999990020068100300682004999990010039100400390003999990020009300300094004999990010521400405213003999990020551000305511004999990010580200405801003999990020608600306087004999990010636500406364003999990020663500306636004999990010690100406900003999990020715900307160004999990010741200407411003999990020765600307657004999990010789500407894003999990020812400308125004999990010834800408347003999990020856300308564004999990010877200408771003999990020897100308972004999990010915900809253008999990010934500809435008999990010952200809606008999990010968700809765008999990010984000809910008999990010997500810036008999990011009200810141008999990011018200899999017

/-- `pad_grid.npz`: `grid[2120, 0], grid[2120, 10], …, grid[2120, 5580]`. -/
def padGrid212 : Nat :=
  9999901505062007050630019999900105022001050210070497200704973001999990010491700104916007048550070485600199999001047910010479000704720007047210019999900104646001046450070456700704568001999990010448700104486007044020070440300199999001043160010431500704225007042260019999900104134001041330070403900704040001999990010385400103852003038510030385300103653001036510030365200303654001999990010344600103444003034430030344500103229001032270030322800303230001999990010300700103005003030040030300600102776001027740030277500302777001999990010253900102537003025360030253800102293001022910030229200302294001999990010204200102040003020390030204100101782001017800030178100301783001999990010151800101516003015150030151700101246001012440030124500301247001999990010096900100967003009660030096800100683001006810030068200300684001999990010039300100391003003900030039200100095001000930030009400300096001999990010521600105214003052130030521500105512001055100030551100305513001999990010580400105802003058010030580300106088001060860030608700306089001999990010636700106365003063640030636600106637001066350030663600306638001999990010690300106901003069000030690200107161001071590030716000307162001999990010741400107412003074110030741300107658001076560030765700307659001999990010789700107895003078940030789600108126001081240030812500308127001999990010835000108348003083470030834900108565001085630030856400308566001999990010877400108772003087710030877300108973001089710030897200308974001999990010916000109159007092530070925400199999001093460010934500709435007094360019999900109523001095220070960600709607001999990010968800109687007097650070976600199999001098410010984000709910007099110019999900109976001099750071003600710037001999990011009300110092007101410071014200199999001101830011018200799999017

/-- `pad_grid.npz`: `grid[2130, 0], grid[2130, 10], …, grid[2130, 5580]`. -/
def padGrid213 : Nat :=
  99999015050620059999900105063002999990010502200299999001050210050497200599999001049730029999900104917002999990010491600504855005999990010485600299999001047910029999900104790005047200059999900104721002999990010464600299999001046450050456700599999001045680029999900104487002999990010448600504402005999990010440300299999001043160029999900104315005042250059999900104226002999990010413400299999001041330050403900599999001040400029999900103854002999990010385200103851001038530030365300303651001036520019999900103654002999990010344600299999001034440010344300103445003032290030322700103228001999990010323000299999001030070029999900103005001030040010300600302776003027740010277500199999001027770029999900102539002999990010253700102536001025380030229300302291001022920019999900102294002999990010204200299999001020400010203900102041003017820030178000101781001999990010178300299999001015180029999900101516001015150010151700301246003012440010124500199999001012470029999900100969002999990010096700100966001009680030068300300681001006820019999900100684002999990010039300299999001003910010039000100392003000950030009300100094001999990010009600299999001052160029999900105214001052130010521500305512003055100010551100199999001055130029999900105804002999990010580200105801001058030030608800306086001060870019999900106089002999990010636700299999001063650010636400106366003066370030663500106636001999990010663800299999001069030029999900106901001069000010690200307161003071590010716000199999001071620029999900107414002999990010741200107411001074130030765800307656001076570019999900107659002999990010789700299999001078950010789400107896003081260030812400108125001999990010812700299999001083500029999900108348001083470010834900308565003085630010856400199999001085660029999900108774002999990010877200108771001087730030897300308971001089720019999900108974002999990010916000299999001091590050925300599999001092540029999900109346002999990010934500509435005999990010943600299999001095230029999900109522005096060059999900109607002999990010968800299999001096870050976500599999001097660029999900109841002999990010984000509910005999990010991100299999001099760029999900109975005100360059999900110037002999990011009300299999001100920051014100599999001101420029999900110183002999990011018200599999017

/-- `pad_grid.npz`: `grid[2140, 0], grid[2140, 10], …, grid[2140, 5580]`. -/
def padGrid214 : Nat :=
  999990150506200405063004999990010502200405021004049720040497300499999001049170040491600404855004048560049999900104791004047900040472000404721004999990010464600404645004045670040456800499999001044870040448600404402004044030049999900104316004043150040422500404226004999990010413400404133004040390040404000499999001038540030385500103853004036530040365500103654003999990010344600303447001034450040322900403231001032300039999900103007003030080010300600402776004027780010277700399999001025390030254000102538004022930040229500102294003999990010204200302043001020410040178200401784001017830039999900101518003015190010151700401246004012480010124700399999001009690030097000100968004006830040068500100684003999990010039300300394001003920040009500400097001000960039999900105216003052170010521500405512004055140010551300399999001058040030580500105803004060880040609000106089003999990010636700306368001063660040663700406639001066380039999900106903003069040010690200407161004071630010716200399999001074140030741500107413004076580040766000107659003999990010789700307898001078960040812600408128001081270039999900108350003083510010834900408565004085670010856600399999001087740030877500108773004089730040897500108974003999990010916000409159004092530040925400499999001093460040934500409435004094360049999900109523004095220040960600409607004999990010968800409687004097650040976600499999001098410040984000409910004099110049999900109976004099750041003600410037004999990011009300410092004101410041014200499999001101830041018200499999017

/-- `pad_grid.npz`: `grid[2150, 0], grid[2150, 10], …, grid[2150, 5580]`. -/
def padGrid215 : Nat :=
  99999015050620020506300699999001050220060502100204972002049730069999900104917006049160020485500204856006999990010479100604790002047200020472100699999001046460060464500204567002045680069999900104487006044860020440200204403006999990010431600604315002042250020422600699999001041340060413300204039002040400069999900103854001999990010385500203856002038530020365300203656002036550029999900103654001999990010344600199999001034470020344800203445002032290020323200203231002999990010323000199999001030070019999900103008002030090020300600202776002027790020277800299999001027770019999900102539001999990010254000202541002025380020229300202296002022950029999900102294001999990010204200199999001020430020204400202041002017820020178500201784002999990010178300199999001015180019999900101519002015200020151700201246002012490020124800299999001012470019999900100969001999990010097000200971002009680020068300200686002006850029999900100684001999990010039300199999001003940020039500200392002000950020009800200097002999990010009600199999001052160019999900105217002052180020521500205512002055150020551400299999001055130019999900105804001999990010580500205806002058030020608800206091002060900029999900106089001999990010636700199999001063680020636900206366002066370020664000206639002999990010663800199999001069030019999900106904002069050020690200207161002071640020716300299999001071620019999900107414001999990010741500207416002074130020765800207661002076600029999900107659001999990010789700199999001078980020789900207896002081260020812900208128002999990010812700199999001083500019999900108351002083520020834900208565002085680020856700299999001085660019999900108774001999990010877500208776002087730020897300208976002089750029999900108974001999990010916000609159002092530020925400699999001093460060934500209435002094360069999900109523006095220020960600209607006999990010968800609687002097650020976600699999001098410060984000209910002099110069999900109976006099750021003600210037006999990011009300610092002101410021014200699999001101830061018200299999017

/-- `pad_grid.npz`: `grid[2160, 0], grid[2160, 10], …, grid[2160, 5580]`. -/
def padGrid216 : Nat :=
  99999015050630089999900105022008049730089999900104917008048560089999900104791008047210089999900104646008045680089999900104487008044030089999900104316008042260089999900104134008040400089999900103855004038560040365600403655004999990010344700403448004032320040323100499999001030080040300900402779004027780049999900102540004025410040229600402295004999990010204300402044004017850040178400499999001015190040152000401249004012480049999900100970004009710040068600400685004999990010039400400395004000980040009700499999001052170040521800405515004055140049999900105805004058060040609100406090004999990010636800406369004066400040663900499999001069040040690500407164004071630049999900107415004074160040766100407660004999990010789800407899004081290040812800499999001083510040835200408568004085670049999900108775004087760040897600408975004999990010916000809254008999990010934600809436008999990010952300809607008999990010968800809766008999990010984100809911008999990010997600810037008999990011009300810142008999990011018300899999017

/-- `pad_grid.npz`: `grid[2170, 0], grid[2170, 10], …, grid[2170, 5580]`. -/
def padGrid217 : Nat :=
  99999014050950010506400105063007999990010502200699999001050230010497400104973007999990010491700699999001049180010485700104856007999990010479100699999001047920010472200104721007999990010464600699999001046470010456900104568007999990010448700699999001044880010440400104403007999990010431600699999001043170010422700104226007999990010413400699999001041350010404100104040007999990010385700103855003038560029999900103858001036580010365600303655003036570019999900103449001034470030344800299999001034500010323400103232003032310030323300199999001030100010300800303009002999990010301100102781001027790030277800302780001999990010254200102540003025410029999900102543001022980010229600302295003022970019999900102045001020430030204400299999001020460010178700101785003017840030178600199999001015210010151900301520002999990010152200101251001012490030124800301250001999990010097200100970003009710029999900100973001006880010068600300685003006870019999900100396001003940030039500299999001003970010010000100098003000970030009900199999001052190010521700305218003052200010551700199999001055150020551400305516001999990010580700105805003058060030580800106093001999990010609100206090003060920019999900106370001063680030636900306371001066420019999900106640002066390030664100199999001069060010690400306905003069070010716600199999001071640020716300307165001999990010741700107415003074160030741800107663001999990010766100207660003076620019999900107900001078980030789900307901001081310019999900108129002081280030813000199999001083530010835100308352003083540010857000199999001085680020856700308569001999990010877700108775003087760030877800108978001999990010897600208975003089770019999900109160007091610010925500199999001092540069999900109346007093470010943700199999001094360069999900109523007095240010960800199999001096070069999900109688007096890010976700199999001097660069999900109841007098420010991200199999001099110069999900109976007099770011003800199999001100370069999900110093007100940011014300199999001101420069999900110183007101840011021500199999016

/-- `pad_grid.npz`: `grid[2180, 0], grid[2180, 10], …, grid[2180, 5580]`. -/
def padGrid218 : Nat :=
  99999012050950030506400305063005999990010502200505023003049740030497300599999001049170050491800304857003048560059999900104791005047920030472200304721005999990010464600504647003045690030456800599999001044870050448800304404003044030059999900104316005043170030422700304226005999990010413400504135003040410030404000599999001038570030385500103856001038580030365800303656001036550010365700399999001034490030344700103448001034500030323400303232001032310010323300399999001030100030300800103009001030110030278100302779001027780010278000399999001025420030254000102541001025430030229800302296001022950010229700399999001020450030204300102044001020460030178700301785001017840010178600399999001015210030151900101520001015220030125100301249001012480010125000399999001009720030097000100971001009730030068800300686001006850010068700399999001003960030039400100395001003970030010000300098001000970010009900399999001052190030521700105218001052200030551700305515001055140010551600399999001058070030580500105806001058080030609300306091001060900010609200399999001063700030636800106369001063710030664200306640001066390010664100399999001069060030690400106905001069070030716600307164001071630010716500399999001074170030741500107416001074180030766300307661001076600010766200399999001079000030789800107899001079010030813100308129001081280010813000399999001083530030835100108352001083540030857000308568001085670010856900399999001087770030877500108776001087780030897800308976001089750010897700399999001091600050916100309255003092540059999900109346005093470030943700309436005999990010952300509524003096080030960700599999001096880050968900309767003097660059999900109841005098420030991200309911005999990010997600509977003100380031003700599999001100930051009400310143003101420059999900110183005101840031021500399999014

/-- `pad_grid.npz`: `grid[2190, 0], grid[2190, 10], …, grid[2190, 5580]`. -/
def padGrid219 : Nat :=
  9999901005095005050640050506300399999001050220030502300504974005049730039999900104917003049180050485700504856003999990010479100304792005047220050472100399999001046460030464700504569005045680039999900104487003044880050440400504403003999990010431600304317005042270050422600399999001041340030413500504041005040400039999900103857003038600010385800403658004036600010365700399999001034490030345200103450004032340040323600103233003999990010301000303013001030110040278100402783001027800039999900102542003025450010254300402298004023000010229700399999001020450030204800102046004017870040178900101786003999990010152100301524001015220040125100401253001012500039999900100972003009750010097300400688004006900010068700399999001003960030039900100397004001000040010200100099003999990010521900305222001052200040551700405519001055160039999900105807003058100010580800406093004060950010609200399999001063700030637300106371004066420040664400106641003999990010690600306909001069070040716600407168001071650039999900107417003074200010741800407663004076650010766200399999001079000030790300107901004081310040813300108130003999990010835300308356001083540040857000408572001085690039999900108777003087800010877800408978004089800010897700399999001091600030916100509255005092540039999900109346003093470050943700509436003999990010952300309524005096080050960700399999001096880030968900509767005097660039999900109841003098420050991200509911003999990010997600309977005100380051003700399999001100930031009400510143005101420039999900110183003101840051021500599999012

/-- `pad_grid.npz`: `grid[2200, 0], grid[2200, 10], …, grid[2200, 5580]`. -/
def padGrid220 : Nat :=
  999990080509500705064006999990010506300199999001050220010502300704974006999990010497300199999001049170010491800704857006999990010485600199999001047910010479200704722006999990010472100199999001046460010464700704569006999990010456800199999001044870010448800704404006999990010440300199999001043160010431700704227006999990010422600199999001041340010413500704041006999990010404000199999001038570010386000303859002038580020365800203659002036600029999900103657001999990010344900103452003034510020345000203234002032350020323600299999001032330019999900103010001030130030301200203011002027810020278200202783002999990010278000199999001025420010254500302544002025430020229800202299002023000029999900102297001999990010204500102048003020470020204600201787002017880020178900299999001017860019999900101521001999990010152400201523002015220020125100201252002012530029999900101250001999990010097200199999001009750020097400200973002006880020068900200690002999990010068700199999001003960019999900100399002003980020039700200100002001010020010200299999001000990019999900105219001999990010522200205221002052200020551700205518002055190029999900105516001999990010580700199999001058100020580900205808002060930020609400206095002999990010609200199999001063700019999900106373002063720020637100206642002066430020664400299999001066410019999900106906001999990010690900206908002069070020716600207167002071680030716500199999001074170019999900107420002074190020741800207663002076640020766500307662001999990010790000199999001079030020790200207901002081310020813200208133003081300019999900108353001999990010835600208355002083540020857000208571002085720030856900199999001087770019999900108780002087790020877800208978002089790020898000308977001999990010916000199999001091610060925500709254001999990010934600199999001093470060943700709436001999990010952300199999001095240060960800709607001999990010968800199999001096890060976700709766001999990010984100199999001098420060991200709911001999990010997600199999001099770061003800710037001999990011009300199999001100940061014300710142001999990011018300199999001101840061021500799999010

/-- `pad_grid.npz`: `grid[2210, 0], grid[2210, 10], …, grid[2210, 5580]`. -/
def padGrid221 : Nat :=
  999990070509500805064008999990010502300804974008999990010491800804857008999990010479200804722008999990010464700804569008999990010448800804404008999990010431700804227008999990010413500804041008999990010386000403859004036590040366000499999001034520040345100403235004032360049999900103013004030120040278200402783004999990010254500402544004022990040230000499999001020480040204700401788004017890049999900101524004015230040125200401253004999990010097500400974004006890040069000499999001003990040039800400101004001020049999900105222004052210040551800405519004999990010581000405809004060940040609500499999001063730040637200406643004066440049999900106909004069080040716700407168004999990010742000407419004076640040766500499999001079030040790200408132004081330049999900108356004083550040857100408572004999990010878000408779004089790040898000499999001091610080925500899999001093470080943700899999001095240080960800899999001096890080976700899999001098420080991200899999001099770081003800899999001100940081014300899999001101840081021500899999009

/-- `pad_grid.npz`: `grid[2220, 0], grid[2220, 10], …, grid[2220, 5580]`. -/
def padGrid222 : Nat :=
  9999900705096001050950070506400705065001999990010502400105023007049740070497500199999001049190010491800704857007048580019999900104793001047920070472200704723001999990010464800104647007045690070457000199999001044890010448800704404007044050019999900104318001043170070422700704228001999990010413600104135007040410070404200199999001038620010386000303859002999990010386100103661001999990010365900203660003036620019999900103454001034520030345100299999001034530010323700199999001032350020323600303238001999990010301500103013003030120029999900103014001027840019999900102782002027830030278500199999001025470010254500302544002999990010254600102301001999990010229900202300003023020019999900102050001020480030204700299999001020490010179000199999001017880020178900301791001999990010152600101524003015230029999900101525001012540019999900101252002012530030125500199999001009770010097500300974002999990010097600100691001999990010068900200690003006920019999900100401001003990030039800299999001004000010010300199999001001010020010200300104001999990010522400105222003052210029999900105223001055200019999900105518002055190030552100199999001058120010581000305809002999990010581100106096001999990010609400206095003060970019999900106375001063730030637200299999001063740010664500199999001066430020664400306646001999990010691100106909003069080029999900106910001071690019999900107167002071680030717000199999001074220010742000307419002999990010742100107666001999990010766400207665003076670019999900107905001079030030790200299999001079040010813400199999001081320020813300308135001999990010835800108356003083550029999900108357001085730019999900108571002085720030857400199999001087820010878000308779002999990010878100108981001999990010897900208980003089820019999900109162001091610070925500709256001999990010934800109347007094370070943800199999001095250010952400709608007096090019999900109690001096890070976700709768001999990010984300109842007099120070991300199999001099780010997700710038007100390019999900110095001100940071014300710144001999990011018500110184007102150071021600199999009

/-- `pad_grid.npz`: `grid[2230, 0], grid[2230, 10], …, grid[2230, 5580]`. -/
def padGrid223 : Nat :=
  999990070509600305095005050640050506500399999001050240030502300504974005049750039999900104919003049180050485700504858003999990010479300304792005047220050472300399999001046480030464700504569005045700039999900104489003044880050440400504405003999990010431800304317005042270050422800399999001041360030413500504041005040420039999900103862003038600010385900103861003036610030365900103660001036620039999900103454003034520010345100103453003032370030323500103236001032380039999900103015003030130010301200103014003027840030278200102783001027850039999900102547003025450010254400102546003023010030229900102300001023020039999900102050003020480010204700102049003017900030178800101789001017910039999900101526003015240010152300101525003012540030125200101253001012550039999900100977003009750010097400100976003006910030068900100690001006920039999900100401003003990010039800100400003001030030010100100102001001040039999900105224003052220010522100105223003055200030551800105519001055210039999900105812003058100010580900105811003060960030609400106095001060970039999900106375003063730010637200106374003066450030664300106644001066460039999900106911003069090010690800106910003071690030716700107168001071700039999900107422003074200010741900107421003076660030766400107665001076670039999900107905003079030010790200107904003081340030813200108133001081350039999900108358003083560010835500108357003085730030857100108572001085740039999900108782003087800010877900108781003089810030897900108980001089820039999900109162003091610050925500509256003999990010934800309347005094370050943800399999001095250030952400509608005096090039999900109690003096890050976700509768003999990010984300309842005099120050991300399999001099780030997700510038005100390039999900110095003100940051014300510144003999990011018500310184005102150051021600399999009

/-- `pad_grid.npz`: `grid[2240, 0], grid[2240, 10], …, grid[2240, 5580]`. -/
def padGrid224 : Nat :=
  9999900705096004999990010509500305064003999990010506500499999001050240049999900105023003049740039999900104975004999990010491900499999001049180030485700399999001048580049999900104793004999990010479200304722003999990010472300499999001046480049999900104647003045690039999900104570004999990010448900499999001044880030440400399999001044050049999900104318004999990010431700304227003999990010422800499999001041360049999900104135003040410039999900104042004999990010386200303863001999990010386100303661003999990010366300103662003999990010345400303455001999990010345300303237003999990010323900103238003999990010301500303016001999990010301400302784003999990010278600102785003999990010254700302548001999990010254600302301003999990010230300102302003999990010205000302051001999990010204900301790003999990010179200101791003999990010152600301527001999990010152500301254003999990010125600101255003999990010097700300978001999990010097600300691003999990010069300100692003999990010040100300402001999990010040000300103003999990010010500100104003999990010522400305225001999990010522300305520003999990010552200105521003999990010581200305813001999990010581100306096003999990010609800106097003999990010637500306376001999990010637400306645003999990010664700106646003999990010691100306912001999990010691000307169003999990010717100107170003999990010742200307423001999990010742100307666003999990010766800107667003999990010790500307906001999990010790400308134003999990010813600108135003999990010835800308359001999990010835700308573003999990010857500108574003999990010878200308783001999990010878100308981003999990010898300108982003999990010916200499999001091610030925500399999001092560049999900109348004999990010934700309437003999990010943800499999001095250049999900109524003096080039999900109609004999990010969000499999001096890030976700399999001097680049999900109843004999990010984200309912003999990010991300499999001099780049999900109977003100380039999900110039004999990011009500499999001100940031014300399999001101440049999900110185004999990011018400310215003999990011021600499999009

/-- `pad_grid.npz`: `grid[2250, 0], grid[2250, 10], …, grid[2250, 5580]`. -/
def padGrid225 : Nat :=
  999990070509600605095002050640020506500699999001050240060502300204974002049750069999900104919006049180020485700204858006999990010479300604792002047220020472300699999001046480060464700204569002045700069999900104489006044880020440400204405006999990010431800604317002042270020422800699999001041360060413500204041002040420069999900103862001038630030386400203861002036610020366400203663003036620019999900103454001034550030345600203453002032370020324000203239003032380019999900103015001030160030301700203014002027840020278700202786003027850019999900102547001025480030254900202546002023010020230400202303003023020019999900102050001020510030205200202049002017900020179300201792003017910019999900101526001015270030152800201525002012540020125700201256003012550019999900100977001009780030097900200976002006910020069400200693003006920019999900100401001004020030040300200400002001030020010600200105003001040019999900105224001052250030522600205223002055200020552300205522003055210019999900105812001058130030581400205811002060960020609900206098003060970019999900106375001063760030637700206374002066450020664800206647003066460019999900106911001069120030691300206910002071690020717200207171003071700019999900107422001074230030742400207421002076660020766900207668003076670019999900107905001079060030790700207904002081340020813700208136003081350019999900108358001083590030836000208357002085730020857600208575003085740019999900108782001087830030878400208781002089810020898400208983003089820019999900109162006091610020925500209256006999990010934800609347002094370020943800699999001095250060952400209608002096090069999900109690006096890020976700209768006999990010984300609842002099120020991300699999001099780060997700210038002100390069999900110095006100940021014300210144006999990011018500610184002102150021021600699999009

/-- `pad_grid.npz`: `grid[2260, 0], grid[2260, 10], …, grid[2260, 5580]`. -/
def padGrid226 : Nat :=
  999990070509600805065008999990010502400804975008999990010491900804858008999990010479300804723008999990010464800804570008999990010448900804405008999990010431800804228008999990010413600804042008999990010386300403864004036640040366300499999001034550040345600403240004032390049999900103016004030170040278700402786004999990010254800402549004023040040230300499999001020510040205200401793004017920049999900101527004015280040125700401256004999990010097800400979004006940040069300499999001004020040040300400106004001050049999900105225004052260040552300405522004999990010581300405814004060990040609800499999001063760040637700406648004066470049999900106912004069130040717200407171004999990010742300407424004076690040766800499999001079060040790700408137004081360049999900108359004083600040857600408575004999990010878300408784004089840040898300499999001091620080925600899999001093480080943800899999001095250080960900899999001096900080976800899999001098430080991300899999001099780081003900899999001100950081014400899999001101850081021600899999009

/-- `pad_grid.npz`: `grid[2270, 0], grid[2270, 10], …, grid[2270, 5580]`. -/
def padGrid227 : Nat :=
  999990070509600605097002050660020506500699999001050240060502500204976002049750069999900104919006049200020485900204858006999990010479300604794002047240020472300699999001046480060464900204571002045700069999900104489006044900020440600204405006999990010431800604319002042290020422800699999001041360060413700204043002040420069999900103865001038630030386400203866002036660020366400203663003036650019999900103457001034550030345600203458002032420020324000203239003032410019999900103018001030160030301700203019002027890020278700202786003027880019999900102550001025480030254900202551002023060020230400202303003023050019999900102053001020510030205200202054002017950020179300201792003017940019999900101529001015270030152800201530002012590020125700201256003012580019999900100980001009780030097900200981002006960020069400200693003006950019999900100404001004020030040300200405002001080020010600200105003001070019999900105227001052250030522600205228002055250020552300205522003055240019999900105815001058130030581400205816002061010020609900206098003061000019999900106378001063760030637700206379002066500020664800206647003066490019999900106914001069120030691300206915002071740020717200207171003071730019999900107425001074230030742400207426002076710020766900207668003076700019999900107908001079060030790700207909002081390020813700208136003081380019999900108361001083590030836000208362002085780020857600208575003085770019999900108785001087830030878400208786002089860020898400208983003089850019999900109162006091630020925700209256006999990010934800609349002094390020943800699999001095250060952600209610002096090069999900109690006096910020976900209768006999990010984300609844002099140020991300699999001099780060997900210040002100390069999900110095006100960021014500210144006999990011018500610186002102170021021600699999009

/-- `pad_grid.npz`: `grid[2280, 0], grid[2280, 10], …, grid[2280, 5580]`. -/
def padGrid228 : Nat :=
  9999900705096004999990010509700305066003999990010506500499999001050240049999900105025003049760039999900104975004999990010491900499999001049200030485900399999001048580049999900104793004999990010479400304724003999990010472300499999001046480049999900104649003045710039999900104570004999990010448900499999001044900030440600399999001044050049999900104318004999990010431900304229003999990010422800499999001041360049999900104137003040430039999900104042004999990010386500303863001999990010386600303666003999990010366300103665003999990010345700303455001999990010345800303242003999990010323900103241003999990010301800303016001999990010301900302789003999990010278600102788003999990010255000302548001999990010255100302306003999990010230300102305003999990010205300302051001999990010205400301795003999990010179200101794003999990010152900301527001999990010153000301259003999990010125600101258003999990010098000300978001999990010098100300696003999990010069300100695003999990010040400300402001999990010040500300108003999990010010500100107003999990010522700305225001999990010522800305525003999990010552200105524003999990010581500305813001999990010581600306101003999990010609800106100003999990010637800306376001999990010637900306650003999990010664700106649003999990010691400306912001999990010691500307174003999990010717100107173003999990010742500307423001999990010742600307671003999990010766800107670003999990010790800307906001999990010790900308139003999990010813600108138003999990010836100308359001999990010836200308578003999990010857500108577003999990010878500308783001999990010878600308986003999990010898300108985003999990010916200499999001091630030925700399999001092560049999900109348004999990010934900309439003999990010943800499999001095250049999900109526003096100039999900109609004999990010969000499999001096910030976900399999001097680049999900109843004999990010984400309914003999990010991300499999001099780049999900109979003100400039999900110039004999990011009500499999001100960031014500399999001101440049999900110185004999990011018600310217003999990011021600499999009

/-- `pad_grid.npz`: `grid[2290, 0], grid[2290, 10], …, grid[2290, 5580]`. -/
def padGrid229 : Nat :=
  999990070509600305097005050660050506500399999001050240030502500504976005049750039999900104919003049200050485900504858003999990010479300304794005047240050472300399999001046480030464900504571005045700039999900104489003044900050440600504405003999990010431800304319005042290050422800399999001041360030413700504043005040420039999900103865003038680010386700103866003036660030366700103668001036650039999900103457003034600010345900103458003032420030324300103244001032410039999900103018003030210010302000103019003027890030279000102791001027880039999900102550003025530010255200102551003023060030230700102308001023050039999900102053003020560010205500102054003017950030179600101797001017940039999900101529003015320010153100101530003012590030126000101261001012580039999900100980003009830010098200100981003006960030069700100698001006950039999900100404003004070010040600100405003001080030010900100110001001070039999900105227003052300010522900105228003055250030552600105527001055240039999900105815003058180010581700105816003061010030610200106103001061000039999900106378003063810010638000106379003066500030665100106652001066490039999900106914003069170010691600106915003071740030717500107176001071730039999900107425003074280010742700107426003076710030767200107673001076700039999900107908003079110010791000107909003081390030814000108141001081380039999900108361003083640010836300108362003085780030857900108580001085770039999900108785003087880010878700108786003089860030898700108988001089850039999900109162003091630050925700509256003999990010934800309349005094390050943800399999001095250030952600509610005096090039999900109690003096910050976900509768003999990010984300309844005099140050991300399999001099780030997900510040005100390039999900110095003100960051014500510144003999990011018500310186005102170051021600399999009

/-- `pad_grid.npz`: `grid[2300, 0], grid[2300, 10], …, grid[2300, 5580]`. -/
def padGrid230 : Nat :=
  9999900705096001050970070506600705065001999990010502400105025007049760070497500199999001049190010492000704859007048580019999900104793001047940070472400704723001999990010464800104649007045710070457000199999001044890010449000704406007044050019999900104318001043190070422900704228001999990010413600104137007040430070404200199999001038650010386800303867002038660020366600199999001036670020366800303665001999990010345700103460003034590020345800203242001999990010324300203244003032410019999900103018001030210030302000203019002027890019999900102790002027910030278800199999001025500010255300302552002999990010255100102306001999990010230700202308003023050019999900102053001020560030205500299999001020540010179500199999001017960020179700301794001999990010152900101532003015310029999900101530001012590019999900101260002012610030125800199999001009800010098300300982002999990010098100100696001999990010069700200698003006950019999900100404001004070030040600299999001004050010010800199999001001090020011000300107001999990010522700105230003052290029999900105228001055250019999900105526002055270030552400199999001058150010581800305817002999990010581600106101001999990010610200206103003061000019999900106378001063810030638000299999001063790010665000199999001066510020665200306649001999990010691400106917003069160029999900106915001071740019999900107175002071760030717300199999001074250010742800307427002999990010742600107671001999990010767200207673003076700019999900107908001079110030791000299999001079090010813900208140002081410030813800199999001083610010836400308363002999990010836200108578002085790020858000308577001999990010878500108788003087870029999900108786001089860020898700208988003089850019999900109162001091630070925700709256001999990010934800109349007094390070943800199999001095250010952600709610007096090019999900109690001096910070976900709768001999990010984300109844007099140070991300199999001099780010997900710040007100390019999900110095001100960071014500710144001999990011018500110186007102170071021600199999009

/-- `pad_grid.npz`: `grid[2310, 0], grid[2310, 10], …, grid[2310, 5580]`. -/
def padGrid231 : Nat :=
  999990070509700805066008999990010502500804976008999990010492000804859008999990010479400804724008999990010464900804571008999990010449000804406008999990010431900804229008999990010413700804043008999990010386800403867004036670040366800499999001034600040345900403243004032440049999900103021004030200040279000402791004999990010255300402552004023070040230800499999001020560040205500401796004017970049999900101532004015310040126000401261004999990010098300400982004006970040069800499999001004070040040600400109004001100049999900105230004052290040552600405527004999990010581800405817004061020040610300499999001063810040638000406651004066520049999900106917004069160040717500407176004999990010742800407427004076720040767300499999001079110040791000408140004081410049999900108364004083630040857900408580004999990010878800408787004089870040898800499999001091630080925700899999001093490080943900899999001095260080961000899999001096910080976900899999001098440080991400899999001099790081004000899999001100960081014500899999001101860081021700899999009

/-- `pad_grid.npz`: `grid[2320, 0], grid[2320, 10], …, grid[2320, 5580]`. -/
def padGrid232 : Nat :=
  999990070509800105097007050660069999900105067001999990010502600105025007049760069999900104977001999990010492100104920007048590069999900104860001999990010479500104794007047240069999900104725001999990010465000104649007045710069999900104572001999990010449100104490007044060069999900104407001999990010432000104319007042290070423000199999001041380010413700704043007040440019999900103870001038680030386700203869002036690020366700203668003036700019999900103462001034600030345900203461002032450020324300203244003032460019999900103023001030210030302000203022002027920020279000202791003027930019999900102555001025530030255200202554002023090020230700202308003023100019999900102058001020560030205500202057002017980020179600201797003017990019999900101534001015320030153100201533002012620020126000201261003012630019999900100985001009830030098200200984002006990020069700200698003007000019999900100409001004070030040600200408002001110020010900200110003001120019999900105232001052300030522900205231002055280020552600205527003055290019999900105820001058180030581700205819002061040020610200206103003061050019999900106383001063810030638000206382002066530020665100206652003066540019999900106919001069170030691600206918002071770020717500207176003071780019999900107430001074280030742700207429002076740020767200207673003076750019999900107913001079110030791000207912002081420020814000208141003081430019999900108366001083640030836300208365002085810020857900208580003085820019999900108790001087880030878700208789002089890020898700208988003089900019999900109164001091630070925700709258001999990010935000109349007094390070944000199999001095270019999900109526006096100070961100199999001096920019999900109691006097690070977000199999001098450019999900109844006099140070991500199999001099800019999900109979006100400071004100199999001100970019999900110096006101450071014600199999001101870019999900110186006102170071021800199999009

/-- `pad_grid.npz`: `grid[2330, 0], grid[2330, 10], …, grid[2330, 5580]`. -/
def padGrid233 : Nat :=
  99999007050980030509700505066005050670039999900105026003050250050497600504977003999990010492100304920005048590050486000399999001047950030479400504724005047250039999900104650003046490050457100504572003999990010449100304490005044060050440700399999001043200030431900504229005042300039999900104138003041370050404300504044003999990010387000303868001038690040366900399999001036680010367000399999001034620030346000103461004032450039999900103244001032460039999900103023003030210010302200402792003999990010279100102793003999990010255500302553001025540040230900399999001023080010231000399999001020580030205600102057004017980039999900101797001017990039999900101534003015320010153300401262003999990010126100101263003999990010098500300983001009840040069900400698001007000039999900100409003004070010040800400111004001100010011200399999001052320030523000105231004055280040552700105529003999990010582000305818001058190040610400406103001061050039999900106383003063810019999900106382003066530040665200106654003999990010691900306917001999990010691800307177004071760010717800399999001074300030742800199999001074290030767400407673001076750039999900107913003079110019999900107912003081420040814100108143003999990010836600308364001999990010836500308581004085800010858200399999001087900030878800199999001087890030898900408988001089900039999900109164003091630050925700509258003999990010935000309349005094390050944000399999001095270030952600509610005096110039999900109692003096910050976900509770003999990010984500309844005099140050991500399999001099800030997900510040005100410039999900110097003100960051014500510146003999990011018700310186005102170051021800399999009

/-- `pad_grid.npz`: `grid[2340, 0], grid[2340, 10], …, grid[2340, 5580]`. -/
def padGrid234 : Nat :=
  999990070509800505097003050660030506700599999001050260050502500304976003049770059999900104921005049200030485900304860005999990010479500504794003047240030472500599999001046500050464900304571003045720059999900104491005044900030440600304407005999990010432000504319003042290030423000599999001041380050413700304043003040440059999900103870003038710010387200103869003036690030367200103671001036700039999900103462003034630010346400103461003032450030324800103247001032460039999900103023003030240010302500103022003027920030279500102794001027930039999900102555003025560010255700102554003023090030231200102311001023100039999900102058003020590010206000102057003017980030180100101800001017990039999900101534003015350010153600101533003012620030126500101264001012630039999900100985003009860010098700100984003006990030070200100701001007000039999900100409003004100010041100100408003001110030011400100113001001120039999900105232003052330010523400105231003055280030553100105530001055290039999900105820003058210010582200105819003061040030610700106106001061050039999900106383003063840010638500106382003066530030665600106655001066540039999900106919003069200010692100106918003071770030718000107179001071780039999900107430003074310010743200107429003076740030767700107676001076750039999900107913003079140010791500107912003081420030814500108144001081430039999900108366003083670010836800108365003085810030858400108583001085820039999900108790003087910010879200108789003089890030899200108991001089900039999900109164005091630030925700309258005999990010935000509349003094390030944000599999001095270050952600309610003096110059999900109692005096910030976900309770005999990010984500509844003099140030991500599999001099800050997900310040003100410059999900110097005100960031014500310146005999990011018700510186003102170031021800599999009

/-- `pad_grid.npz`: `grid[2350, 0], grid[2350, 10], …, grid[2350, 5580]`. -/
def padGrid235 : Nat :=
  9999900705098006999990010509700105066001050670079999900105026006999990010502500104976001049770079999900104921006999990010492000104859001048600079999900104795006999990010479400104724001047250079999900104650006999990010464900104571001999990010457200699999001044910069999900104490001044060019999900104407006999990010432000699999001043190010422900199999001042300069999900104138006999990010413700104043001999990010404400699999001038700010387100303872002999990010386900103669001999990010367200203671003036700019999900103462001034630030346400299999001034610010324500199999001032480020324700303246001999990010302300103024003030250029999900103022001027920019999900102795002027940030279300199999001025550010255600302557002999990010255400102309001999990010231200202311003023100019999900102058001020590030206000299999001020570010179800199999001018010020180000301799001999990010153400101535003015360029999900101533001012620019999900101265002012640030126300199999001009850010098600300987002999990010098400100699001999990010070200200701003007000019999900100409001004100030041100299999001004080010011100199999001001140020011300300112001999990010523200105233003052340029999900105231001055280019999900105531002055300030552900199999001058200010582100305822002999990010581900106104001999990010610700206106003061050019999900106383001063840030638500299999001063820010665300199999001066560020665500306654001999990010691900106920003069210029999900106918001071770019999900107180002071790030717800199999001074300010743100307432002999990010742900107674001999990010767700207676003076750019999900107913001079140030791500299999001079120010814200199999001081450020814400308143001999990010836600108367003083680029999900108365001085810019999900108584002085830030858200199999001087900010879100308792002999990010878900108989001999990010899200208991003089900019999900109164006999990010916300109257001999990010925800699999001093500069999900109349001094390019999900109440006999990010952700699999001095260010961000199999001096110069999900109692006999990010969100109769001999990010977000699999001098450070984400109914001999990010991500699999001099800070997900110040001999990011004100699999001100970071009600110145001999990011014600699999001101870071018600110217001999990011021800699999009

/-- `pad_grid.npz`: `grid[2360, 0], grid[2360, 10], …, grid[2360, 5580]`. -/
def padGrid236 : Nat :=
  999990070509800805067008999990010502600804977008999990010492100804860008999990010479500804725008999990010465000804572008999990010449100804407008999990010432000804230008999990010413800804044008999990010387100403872004036720040367100499999001034630040346400403248004032470049999900103024004030250040279500402794004999990010255600402557004023120040231100499999001020590040206000401801004018000049999900101535004015360040126500401264004999990010098600400987004007020040070100499999001004100040041100400114004001130049999900105233004052340040553100405530004999990010582100405822004061070040610600499999001063840040638500406656004066550049999900106920004069210040718000407179004999990010743100407432004076770040767600499999001079140040791500408145004081440049999900108367004083680040858400408583004999990010879100408792004089920040899100499999001091640080925800899999001093500080944000899999001095270080961100899999001096920080977000899999001098450080991500899999001099800081004100899999001100970081014600899999001101870081021800899999009

/-- `pad_grid.npz`: `grid[2370, 0], grid[2370, 10], …, grid[2370, 5580]`. -/
def padGrid237 : Nat :=
  9999900705098006050990020506800205067006999990010502600605027002049780020497700699999001049210060492200204861002048600069999900104795006047960020472600204725006999990010465000604651002045730020457200699999001044910060449200204408002044070069999900104320006043210020423100204230006999990010413800604139002040450020404400699999001038730019999900103871002038720020387400203674002036720020367100299999001036730019999900103465001999990010346300203464002034660020325000203248002032470029999900103249001999990010302600199999001030240020302500203027002027970020279500202794002999990010279600199999001025580019999900102556002025570020255900202314002023120020231100299999001023130019999900102061001999990010205900202060002020620020180300201801002018000029999900101802001999990010153700199999001015350020153600201538002012670020126500201264002999990010126600199999001009880019999900100986002009870020098900200704002007020020070100299999001007030019999900100412001999990010041000200411002004130020011600200114002001130029999900100115001999990010523500199999001052330020523400205236002055330020553100205530002999990010553200199999001058230019999900105821002058220020582400206109002061070020610600299999001061080019999900106386001999990010638400206385002063870020665800206656002066550029999900106657001999990010692200199999001069200020692100206923002071820020718000207179002999990010718100199999001074330019999900107431002074320020743400207679002076770020767600299999001076780019999900107916001999990010791400207915002079170020814700208145002081440029999900108146001999990010836900199999001083670020836800208370002085860020858400208583002999990010858500199999001087930019999900108791002087920020879400208994002089920020899100299999001089930019999900109164006091650020925900209258006999990010935000609351002094410020944000699999001095270060952800209612002096110069999900109692006096930020977100209770006999990010984500609846002099160020991500699999001099800060998100210042002100410069999900110097006100980021014700210146006999990011018700610188002102190021021800699999009

/-- `pad_grid.npz`: `grid[2380, 0], grid[2380, 10], …, grid[2380, 5580]`. -/
def padGrid238 : Nat :=
  99999007050980040509900405068004050670049999900105026004050270040497800404977004999990010492100404922004048610040486000499999001047950040479600404726004047250049999900104650004046510040457300404572004999990010449100404492004044080040440700499999001043200040432100404231004042300049999900104138004041390040404500404044004999990010387300303871001038740040367400403671001036730039999900103465003034630010346600403250004032470010324900399999001030260030302400103027004027970040279400102796003999990010255800302556001025590040231400402311001023130039999900102061003020590010206200401803004018000010180200399999001015370030153500101538004012670040126400101266003999990010098800300986001009890040070400400701001007030039999900100412003004100010041300400116004001130010011500399999001052350030523300105236004055330040553000105532003999990010582300305821001058240040610900406106001061080039999900106386003063840010638700406658004066550010665700399999001069220030692000106923004071820040717900107181003999990010743300307431001074340040767900407676001076780039999900107916003079140010791700408147004081440010814600399999001083690030836700108370004085860040858300108585003999990010879300308791001087940040899400408991001089930039999900109164004091650040925900409258004999990010935000409351004094410040944000499999001095270040952800409612004096110049999900109692004096930040977100409770004999990010984500409846004099160040991500499999001099800040998100410042004100410049999900110097004100980041014700410146004999990011018700410188004102190041021800499999009

/-- `pad_grid.npz`: `grid[2390, 0], grid[2390, 10], …, grid[2390, 5580]`. -/
def padGrid239 : Nat :=
  99999007050980029999900105099005050680059999900105067002999990010502600299999001050270050497800599999001049770029999900104921002999990010492200504861005999990010486000299999001047950029999900104796005047260059999900104725002999990010465000299999001046510050457300599999001045720029999900104491002999990010449200504408005999990010440700299999001043200029999900104321005042310059999900104230002999990010413800299999001041390050404500599999001040440029999900103873002999990010387600103875001038740030367400303675001036760019999900103673002999990010346500299999001034680010346700103466003032500030325100103252001999990010324900299999001030260029999900103029001030280010302700302797003027980010279900199999001027960029999900102558002999990010256100102560001025590030231400302315001023160019999900102313002999990010206100299999001020640010206300102062003018030030180400101805001999990010180200299999001015370029999900101540001015390010153800301267003012680010126900199999001012660029999900100988002999990010099100100990001009890030070400300705001007060019999900100703002999990010041200299999001004150010041400100413003001160030011700100118001999990010011500299999001052350029999900105238001052370010523600305533003055340010553500199999001055320029999900105823002999990010582600105825001058240030610900306110001061110019999900106108002999990010638600299999001063890010638800106387003066580030665900106660001999990010665700299999001069220029999900106925001069240010692300307182003071830010718400199999001071810029999900107433002999990010743600107435001074340030767900307680001076810019999900107678002999990010791600299999001079190010791800107917003081470030814800108149001999990010814600299999001083690029999900108372001083710010837000308586003085870010858800199999001085850029999900108793002999990010879600108795001087940030899400308995001089960019999900108993002999990010916400299999001091650050925900599999001092580029999900109350002999990010935100509441005999990010944000299999001095270029999900109528005096120059999900109611002999990010969200299999001096930050977100599999001097700029999900109845002999990010984600509916005999990010991500299999001099800029999900109981005100420059999900110041002999990011009700299999001100980051014700599999001101460029999900110187002999990011018800510219005999990011021800299999009

/-- `pad_grid.npz`: `grid[2400, 0], grid[2400, 10], …, grid[2400, 5580]`. -/
def padGrid240 : Nat :=
  999990070509800105099007050680070506700199999001050260010502700704978007049770019999900104921001049220070486100704860001999990010479500104796007047260070472500199999001046500010465100704573007045720019999900104491001044920070440800704407001999990010432000104321007042310070423000199999001041380010413900704045007040440019999900103873001038760030387500303874001036740010367500303676003036730019999900103465001034680030346700303466001032500010325100303252003032490019999900103026001030290030302800303027001027970010279800302799003027960019999900102558001025610030256000302559001023140010231500302316003023130019999900102061001020640030206300302062001018030010180400301805003018020019999900101537001015400030153900301538001012670010126800301269003012660019999900100988001009910030099000300989001007040010070500300706003007030019999900100412001004150030041400300413001001160010011700300118003001150019999900105235001052380030523700305236001055330010553400305535003055320019999900105823001058260030582500305824001061090010611000306111003061080019999900106386001063890030638800306387001066580010665900306660003066570019999900106922001069250030692400306923001071820010718300307184003071810019999900107433001074360030743500307434001076790010768000307681003076780019999900107916001079190030791800307917001081470010814800308149003081460019999900108369001083720030837100308370001085860010858700308588003085850019999900108793001087960030879500308794001089940010899500308996003089930019999900109164001091650070925900709258001999990010935000109351007094410070944000199999001095270010952800709612007096110019999900109692001096930070977100709770001999990010984500109846007099160070991500199999001099800010998100710042007100410019999900110097001100980071014700710146001999990011018700110188007102190071021800199999009

/-- `pad_grid.npz`: `grid[2410, 0], grid[2410, 10], …, grid[2410, 5580]`. -/
def padGrid241 : Nat :=
  99999007050990080506800899999001050270080497800899999001049220080486100899999001047960080472600899999001046510080457300899999001044920080440800899999001043210080423100899999001041390080404500899999001038760040387500399999002036750030367600499999001034680040346700399999002032510030325200499999001030290040302800399999002027980030279900499999001025610040256000399999002023150030231600499999001020640040206300399999002018040030180500499999001015400040153900399999002012680030126900499999001009910040099000399999002007050030070600499999001004150040041400399999002001170030011800499999001052380040523700399999002055340030553500499999001058260040582500399999002061100030611100499999001063890040638800399999002066590030666000499999001069250040692400399999002071830030718400499999001074360040743500399999002076800030768100499999001079190040791800399999002081480030814900499999001083720040837100399999002085870030858800499999001087960040879500399999002089950030899600499999001091650080925900899999001093510080944100899999001095280080961200899999001096930080977100899999001098460080991600899999001099810081004200899999001100980081014700899999001101880081021900899999009

/-- `pad_grid.npz`: `grid[2420, 0], grid[2420, 10], …, grid[2420, 5580]`. -/
def padGrid242 : Nat :=
  999990070510000205099006050680060506900299999001050280020502700604978006049790029999900104923002049220060486100604862002999990010479700204796006047260060472700299999001046520020465100604573006045740029999900104493002044920060440800604409002999990010432200204321006042310060423200299999001041400020413900604045006040460029999900103878002038760020387500203877002036770020367500203676002036780029999900103470002034680020346700203469002032530020325100203252002032540029999900103031002030290020302800203030002028000020279800202799002028010029999900102563002025610020256000202562002023170020231500202316002023180029999900102066002020640020206300202065002018060020180400201805002018070029999900101542002015400020153900201541002012700020126800201269002012710029999900100993002009910020099000200992002007070020070500200706002007080029999900100417002004150020041400200416002001190020011700200118002001200029999900105240002052380020523700205239002055360020553400205535002055370029999900105828002058260020582500205827002061120020611000206111002061130029999900106391002063890020638800206390002066610020665900206660002066620029999900106927002069250020692400206926002071850020718300207184002071860029999900107438002074360020743500207437002076820020768000207681002076830029999900107921002079190020791800207920002081500020814800208149002081510029999900108374002083720020837100208373002085890020858700208588002085900029999900108798002087960020879500208797002089970020899500208996002089980029999900109166002091650060925900609260002999990010935200209351006094410060944200299999001095290020952800609612006096130029999900109694002096930060977100609772002999990010984700209846006099160060991700299999001099820020998100610042006100430029999900110099002100980061014700610148002999990011018900210188006102190061022000299999009

/-- `pad_grid.npz`: `grid[2430, 0], grid[2430, 10], …, grid[2430, 5580]`. -/
def padGrid243 : Nat :=
  99999007051000030509900505068004999990010506900399999001050280030502700504978004999990010497900399999001049230030492200504861004999990010486200399999001047970030479600504726004999990010472700399999001046520030465100504573004999990010457400399999001044930030449200504408004999990010440900399999001043220030432100504231004999990010423200399999001041400039999900104139004040450049999900104046003999990010387800399999001038770040367700499999001036780039999900103470003999990010346900403253004999990010325400399999001030310039999900103030004028000049999900102801003999990010256300399999001025620040231700499999001023180039999900102066003999990010206500401806004999990010180700399999001015420039999900101541004012700049999900101271003999990010099300399999001009920040070700499999001007080039999900100417003999990010041600400119004999990010012000399999001052400039999900105239004055360049999900105537003999990010582800399999001058270040611200499999001061130039999900106391003999990010639000406661004999990010666200399999001069270039999900106926004071850049999900107186003999990010743800399999001074370040768200499999001076830039999900107921003999990010792000408150004999990010815100399999001083740039999900108373004085890049999900108590003999990010879800399999001087970040899700499999001089980039999900109166003999990010916500409259004999990010926000399999001093520039999900109351004094410050944200399999001095290039999900109528004096120050961300399999001096940039999900109693004097710050977200399999001098470039999900109846004099160050991700399999001099820039999900109981004100420051004300399999001100990039999900110098004101470051014800399999001101890039999900110188004102190051022000399999009

/-- `pad_grid.npz`: `grid[2440, 0], grid[2440, 10], …, grid[2440, 5580]`. -/
def padGrid244 : Nat :=
  999990070510000505099003050680030506900599999001050280050502700304978003049790059999900104923005049220030486100304862005999990010479700504796003047260030472700599999001046520050465100304573003045740059999900104493005044920030440800304409005999990010432200504321003042310030423200599999001041400050413900304045003040460059999900103878002038790020388000103877003036770030368000103679002036780029999900103470002034710020347200103469003032530030325600103255002032540029999900103031002030320020303300103030003028000030280300102802002028010029999900102563002025640020256500102562003023170030232000102319002023180029999900102066002020670020206800102065003018060030180900101808002018070029999900101542002015430020154400101541003012700030127300101272002012710029999900100993002009940020099500100992003007070030071000100709002007080029999900100417002004180020041900100416003001190030012200100121002001200029999900105240002052410020524200105239003055360030553900105538002055370029999900105828002058290020583000105827003061120030611500106114002061130029999900106391002063920020639300106390003066610030666400106663002066620029999900106927002069280020692900106926003071850030718800107187002071860029999900107438002074390020744000107437003076820030768500107684002076830029999900107921002079220020792300107920003081500030815300108152002081510029999900108374002083750020837600108373003085890030859200108591002085900029999900108798002087990020880000108797003089970030900000108999002089980029999900109166005091650030925900309260005999990010935200509351003094410030944200599999001095290050952800309612003096130059999900109694005096930030977100309772005999990010984700509846003099160030991700599999001099820050998100310042003100430059999900110099005100980031014700310148005999990011018900510188003102190031022000599999009

/-- `pad_grid.npz`: `grid[2450, 0], grid[2450, 10], …, grid[2450, 5580]`. -/
def padGrid245 : Nat :=
  99999007051000070509900105068001050690079999900105028007050270010497800104979007999990010492300704922001048610010486200799999001047970070479600104726001047270079999900104652007046510010457300104574007999990010449300704492001044080010440900799999001043220070432100104231001042320079999900104140007041390010404500104046007999990020387900303880003038770010367700103680003036790030367800199999002034710030347200303469001032530010325600303255003032540019999900203032003030330030303000102800001028030030280200302801001999990020256400302565003025620010231700102320003023190030231800199999001020660010206700302068003020650010180600101809003018080030180700199999001015420010154300301544003015410010127000101273003012720030127100199999001009930010099400300995003009920010070700100710003007090030070800199999001004170010041800300419003004160010011900100122003001210030012000199999001052400010524100305242003052390010553600105539003055380030553700199999001058280010582900305830003058270010611200106115003061140030611300199999001063910010639200306393003063900010666100106664003066630030666200199999001069270010692800306929003069260010718500107188003071870030718600199999001074380010743900307440003074370010768200107685003076840039999900207921001079220030792300307920001081500010815300308152003999990020837400108375003083760030837300108589001085920030859100399999002087980010879900308800003087970010899700109000003089990039999900209166007091650010925900109260007999990010935200709351001094410010944200799999001095290070952800109612001096130079999900109694007096930010977100109772007999990010984700709846001099160010991700799999001099820070998100110042001100430079999900110099007100980011014700110148007999990011018900710188001102190011022000799999009

/-- `pad_grid.npz`: `grid[2460, 0], grid[2460, 10], …, grid[2460, 5580]`. -/
def padGrid246 : Nat :=
  99999007051000070510100199999001050690079999900105028007050290019999900104979007999990010492300704924001999990010486200799999001047970070479800199999001047270079999900104652007046530019999900104574007999990010449300704494001999990010440900799999001043220070432300199999001042320079999900104140007041410019999900104046007999990010387900403880003038820019999900103680003036790049999900103471004034720030347400103258001032560030325500499999001030320040303300303035001028050010280300302802004999990010256400402565003025670010232200102320003023190049999900102067004020680030207000101811001018090030180800499999001015430040154400301546001012750010127300301272004999990010099400400995003009970010071200100710003007090049999900100418004004190030042100100124001001220030012100499999001052410040524200305244001055410010553900305538004999990010582900405830003058320010611700106115003061140049999900106392004063930030639500106666001066640030666300499999001069280040692900306931001071900010718800307187004999990010743900407440003074420010768700107685003076840049999900107922004079230030792500108155001081530030815200499999001083750040837600308378001085940010859200308591004999990010879900408800003999990010900200109000003089990049999900109166007999990010926100109260007999990010935200799999001094430010944200799999001095290079999900109614001096130079999900109694007999990010977300109772007999990010984700799999001099180010991700799999001099820079999900110044001100430079999900110099007999990011014900110148007999990011018900799999001102210011022000799999009

/-- `pad_grid.npz`: `grid[2470, 0], grid[2470, 10], …, grid[2470, 5580]`. -/
def padGrid247 : Nat :=
  999990070510000605101002050700020506900699999001050280060502900204980002049790069999900104923006049240020486300204862006999990010479700604798002047280020472700699999001046520060465300204575002045740069999900104493006044940020441000204409006999990010432200604323002042330020423200699999001041400060414100204047002040460069999900103881002038790020388000203882002036820020368000203679002036810029999900103473002034710020347200203474002032580020325600203255002032570029999900103034002030320020303300203035002028050020280300202802002028040029999900102566002025640020256500202567002023220020232000202319002023210029999900102069002020670020206800202070002018110020180900201808002018100029999900101545002015430020154400201546002012750020127300201272002012740029999900100996002009940020099500200997002007120020071000200709002007110029999900100420002004180020041900200421002001240020012200200121002001230029999900105243002052410020524200205244002055410020553900205538002055400029999900105831002058290020583000205832002061170020611500206114002061160029999900106394002063920020639300206395002066660020666400206663002066650029999900106930002069280020692900206931002071900020718800207187002071890029999900107441002074390020744000207442002076870020768500207684002076860029999900107924002079220020792300207925002081550020815300208152002081540029999900108377002083750020837600208378002085940020859200208591002085930029999900108801002087990020880000208802002090020020900000208999002090010029999900109166006091670020926100209260006999990010935200609353002094430020944200699999001095290060953000209614002096130069999900109694006096950020977300209772006999990010984700609848002099180020991700699999001099820060998300210044002100430069999900110099006101000021014900210148006999990011018900610190002102210021022000699999009

/-- `pad_grid.npz`: `grid[2480, 0], grid[2480, 10], …, grid[2480, 5580]`. -/
def padGrid248 : Nat :=
  9999900705100004051010040507000405069004999990010502800405029004049800040497900499999001049230040492400404863004048620049999900104797004047980040472800404727004999990010465200404653004045750040457400499999001044930040449400404410004044090049999900104322004043230040423300404232004999990010414000404141004040470040404600499999001038810039999900103882004036820040368100499999001034730039999900103474004032580049999900103257003999990010303400399999001030350040280500499999001028040039999900102566003999990010256700402322004999990010232100399999001020690039999900102070004018110049999900101810003999990010154500399999001015460040127500499999001012740039999900100996003999990010099700400712004999990010071100399999001004200039999900100421004001240049999900100123003999990010524300399999001052440040554100499999001055400039999900105831003999990010583200406117004999990010611600399999001063940039999900106395004066660049999900106665003999990010693000399999001069310040719000499999001071890039999900107441003999990010744200407687004999990010768600399999001079240039999900107925004081550049999900108154003999990010837700399999001083780040859400499999001085930039999900108801004088020040900200499999001090010039999900109166004091670040926100409260004999990010935200409353004094430040944200499999001095290040953000409614004096130049999900109694004096950040977300409772004999990010984700409848004099180040991700499999001099820040998300410044004100430049999900110099004101000041014900410148004999990011018900410190004102210041022000499999009

/-- `pad_grid.npz`: `grid[2490, 0], grid[2490, 10], …, grid[2490, 5580]`. -/
def padGrid249 : Nat :=
  999990070510000205101006050700060506900299999001050280020502900604980006049790029999900104923002049240060486300604862002999990010479700204798006047280060472700299999001046520020465300604575006045740029999900104493002044940060441000604409002999990010432200204323006042330060423200299999001041400020414100604047006040460029999900103881002038840020388300103882003036820030368300103684002036810029999900103473002034760020347500103474003032580030325900103260002032570029999900103034002030370020303600103035003028050030280600102807002028040029999900102566002025690020256800102567003023220030232300102324002023210029999900102069002020720020207100102070003018110030181200101813002018100029999900101545002015480020154700101546003012750030127600101277002012740029999900100996002009990020099800100997003007120030071300100714002007110029999900100420002004230020042200100421003001240030012500100126002001230029999900105243002052460020524500105244003055410030554200105543002055400029999900105831002058340020583300105832003061170030611800106119002061160029999900106394002063970020639600106395003066660030666700106668002066650029999900106930002069330020693200106931003071900030719100107192002071890029999900107441002074440020744300107442003076870030768800107689002076860029999900107924002079270020792600107925003081550030815600108157002081540029999900108377002083800020837900108378003085940030859500108596002085930029999900108801002088040020880300108802003090020030900300109004002090010029999900109166002091670060926100609260002999990010935200209353006094430060944200299999001095290020953000609614006096130029999900109694002096950060977300609772002999990010984700209848006099180060991700299999001099820020998300610044006100430029999900110099002101000061014900610148002999990011018900210190006102210061022000299999009

/-- `pad_grid.npz`: `grid[2500, 0], grid[2500, 10], …, grid[2500, 5580]`. -/
def padGrid250 : Nat :=
  9999900805101007050700079999900305029007049800079999900304924007048630079999900304798007047280079999900304653007045750079999900304494007044100079999900304323007042330079999900304141007040470079999900303884003038830030388200103682001036830030368400399999003034760030347500303474001032580010325900303260003999990030303700303036003030350010280500102806003028070039999900302569003025680030256700102322001023230030232400399999003020720030207100302070001018110010181200301813003999990030154800301547003015460010127500101276003012770039999900300999003009980030099700100712001007130030071400399999003004230030042200300421001001240010012500300126003999990030524600305245003052440010554100105542003055430039999900305834003058330030583200106117001061180030611900399999003063970030639600306395001066660010666700306668003999990030693300306932003069310010719000107191003071920039999900307444003074430030744200107687001076880030768900399999003079270030792600307925001081550010815600308157003999990030838000308379003083780010859400108595003085960039999900308804003088030030880200109002001090030030900400399999003091670070926100799999003093530070944300799999003095300070961400799999003096950070977300799999003098480070991800799999003099830071004400799999003101000071014900799999003101900071022100799999010

/-- `pad_grid.npz`: `grid[2510, 0], grid[2510, 10], …, grid[2510, 5580]`. -/
def padGrid251 : Nat :=
  9999900705101008050700089999900105029008049800089999900104924008048630089999900104798008047280089999900104653008045750089999900104494008044100089999900104323008042330089999900104141008040470089999900103884004038830030388500103685001036830030368400499999001034760040347500303477001032610010325900303260004999990010303700403036003030380010280800102806003028070049999900102569004025680030257000102325001023230030232400499999001020720040207100302073001018140010181200301813004999990010154800401547003015490010127800101276003012770049999900100999004009980030100000100715001007130030071400499999001004230040042200300424001001270010012500300126004999990010524600405245003052470010554400105542003055430049999900105834004058330030583500106120001061180030611900499999001063970040639600306398001066690010666700306668004999990010693300406932003069340010719300107191003071920049999900107444004074430030744500107690001076880030768900499999001079270040792600307928001081580010815600308157004999990010838000408379003083810010859700108595003085960049999900108804004088030030880500109005001090030030900400499999001091670080926100899999001093530080944300899999001095300080961400899999001096950080977300899999001098480080991800899999001099830081004400899999001101000081014900899999001101900081022100899999009

/-- `pad_grid.npz`: `grid[2520, 0], grid[2520, 10], …, grid[2520, 5580]`. -/
def padGrid252 : Nat :=
  9999900705102002051010060507000605071002999990010503000205029006049800060498100299999001049250020492400604863006048640029999900104799002047980060472800604729002999990010465400204653006045750060457600299999001044950020449400604410006044110029999900104324002043230060423300604234002999990010414200204141006040470060404800299999001038860020388400203883001999990010388500203685002999990010368300103684002036860029999900103478002034760020347500199999001034770020326100299999001032590010326000203262002999990010303900203037002030360019999900103038002028080029999900102806001028070020280900299999001025710020256900202568001999990010257000202325002999990010232300102324002023260029999900102074002020720020207100199999001020730020181400299999001018120010181300201815002999990010155000201548002015470019999900101549002012780029999900101276001012770020127900299999001010010020099900200998001999990010100000200715002999990010071300100714002007160029999900100425002004230020042200199999001004240020012700299999001001250010012600200128002999990010524800205246002052450019999900105247002055440029999900105542001055430020554500299999001058360020583400205833001999990010583500206120002999990010611800106119002061210029999900106399002063970020639600199999001063980020666900299999001066670010666800206670002999990010693500206933002069320019999900106934002071930029999900107191001071920020719400299999001074460020744400207443001999990010744500207690002999990010768800107689002076910029999900107929002079270020792600199999001079280020815800299999001081560010815700208159002999990010838200208380002083790019999900108381002085970029999900108595001085960020859800299999001088060020880400208803001999990010880500209005002999990010900300109004002090060029999900109168002091670060926100609262002999990010935400209353006094430060944400299999001095310020953000609614006096150029999900109696002096950060977300609774002999990010984900209848006099180060991900299999001099840020998300610044006100450029999900110101002101000061014900610150002999990011019100210190006102210061022200299999009

/-- `pad_grid.npz`: `grid[2530, 0], grid[2530, 10], …, grid[2530, 5580]`. -/
def padGrid253 : Nat :=
  9999900705102004051010040507000405071004999990010503000405029004049800040498100499999001049250040492400404863004048640049999900104799004047980040472800404729004999990010465400404653004045750040457600499999001044950040449400404410004044110049999900104324004043230040423300404234004999990010414200404141004040470040404800499999001038860040388500403685004036860049999900103478004034770040326100403262004999990010303900403038004028080040280900499999001025710040257000402325004023260049999900102074004020730040181400401815004999990010155000401549004012780040127900499999001010010040100000400715004007160049999900100425004004240040012700400128004999990010524800405247004055440040554500499999001058360040583500406120004061210049999900106399004063980040666900406670004999990010693500406934004071930040719400499999001074460040744500407690004076910049999900107929004079280040815800408159004999990010838200408381004085970040859800499999001088060040880500409005004090060049999900109168004091670040926100409262004999990010935400409353004094430040944400499999001095310040953000409614004096150049999900109696004096950040977300409774004999990010984900409848004099180040991900499999001099840040998300410044004100450049999900110101004101000041014900410150004999990011019100410190004102210041022200499999009

/-- `pad_grid.npz`: `grid[2540, 0], grid[2540, 10], …, grid[2540, 5580]`. -/
def padGrid254 : Nat :=
  99999007051020059999900105101002050700029999900105071005999990010503000599999001050290020498000299999001049810059999900104925005999990010492400204863002999990010486400599999001047990059999900104798002047280029999900104729005999990010465400599999001046530020457500299999001045760059999900104495005999990010449400204410002999990010441100599999001043240059999900104323002042330029999900104234005999990010414200599999001041410020404700299999001040480059999900103886002038870020388800199999001038850020368500299999001036880010368700203686002999990010347800203479002034800019999900103477002032610029999900103264001032630020326200299999001030390020304000203041001999990010303800202808002999990010281100102810002028090029999900102571002025720020257300199999001025700020232500299999001023280010232700202326002999990010207400202075002020760019999900102073002018140029999900101817001018160020181500299999001015500020155100201552001999990010154900201278002999990010128100101280002012790029999900101001002010020020100300199999001010000020071500299999001007180010071700200716002999990010042500200426002004270019999900100424002001270029999900100130001001290020012800299999001052480020524900205250001999990010524700205544002999990010554700105546002055450029999900105836002058370020583800199999001058350020612000299999001061230010612200206121002999990010639900206400002064010019999900106398002066690029999900106672001066710020667000299999001069350020693600206937001999990010693400207193002999990010719600107195002071940029999900107446002074470020744800199999001074450020769000299999001076930010769200207691002999990010792900207930002079310019999900107928002081580029999900108161001081600020815900299999001083820020838300208384001999990010838100208597002999990010860000108599002085980029999900108806002088070020880800199999001088050020900500299999001090080010900700209006002999990010916800599999001091670020926100299999001092620059999900109354005999990010935300209443002999990010944400599999001095310059999900109530002096140029999900109615005999990010969600599999001096950020977300299999001097740059999900109849005999990010984800209918002999990010991900599999001099840059999900109983002100440029999900110045005999990011010100599999001101000021014900299999001101500059999900110191005999990011019000210221002999990011022200599999009

/-- `pad_grid.npz`: `grid[2550, 0], grid[2550, 10], …, grid[2550, 5580]`. -/
def padGrid255 : Nat :=
  99999007051020070510100105070001050710079999900105030007050290010498000104981007999990010492500704924001048630010486400799999001047990070479800104728001047290079999900104654007046530010457500104576007999990010449500704494001044100010441100799999001043240070432300104233001042340079999900104142007041410010404700104048007999990010388700403888003038850010368500103688003036870049999900103479004034800030347700103261001032640030326300499999001030400040304100303038001028080010281100302810004999990010257200402573003025700010232500102328003023270049999900102075004020760030207300101814001018170030181600499999001015510040155200301549001012780010128100301280004999990010100200401003003010000010071500100718003007170049999900100426004004270030042400100127001001300030012900499999001052490040525000305247001055440010554700305546004999990010583700405838003058350010612000106123003061220049999900106400004064010030639800106669001066720030667100499999001069360040693700306934001071930010719600307195004999990010744700407448003074450010769000107693003076920049999900107930004079310030792800108158001081610030816000499999001083830040838400308381001085970010860000308599004999990010880700408808003088050010900500109008003090070049999900109168007091670010926100109262007999990010935400709353001094430010944400799999001095310070953000109614001096150079999900109696007096950010977300109774007999990010984900709848001099180010991900799999001099840070998300110044001100450079999900110101007101000011014900110150007999990011019100710190001102210011022200799999009

/-- `pad_grid.npz`: `grid[2560, 0], grid[2560, 10], …, grid[2560, 5580]`. -/
def padGrid256 : Nat :=
  99999007051020070510300105072001050710079999900105030007050310010498200104981007999990010492500704926001048650010486400799999001047990070480000104730001047290079999900104654007046550010457700104576007999990010449500704496001044120010441100799999001043240070432500104235001042340079999900104142007041430010404900104048007999990020388700303888003038900010369000103688003036870039999900303479003034800030348200103266001032640030326300399999003030400030304100303043001028130010281100302810003999990030257200302573003025750010233000102328003023270039999900302075003020760030207800101819001018170030181600399999003015510030155200301554001012830010128100301280003999990030100200301003003010050010072000100718003007170039999900300426003004270030042900100132001001300030012900399999003052490030525000305252001055490010554700305546003999990030583700305838003058400010612500106123003061220039999900306400003064010030640300106674001066720030667100399999003069360030693700306939001071980010719600307195003999990030744700307448003074500010769500107693003076920039999900307930003079310030793300108163001081610030816000399999003083830030838400308386001086020010860000308599003999990030880700308808003088100010901000109008003090070039999900209168007091690010926300109262007999990010935400709355001094450010944400799999001095310070953200109616001096150079999900109696007096970010977500109774007999990010984900709850001099200010991900799999001099840070998500110046001100450079999900110101007101020011015100110150007999990011019100710192001102230011022200799999009

/-- `pad_grid.npz`: `grid[2570, 0], grid[2570, 10], …, grid[2570, 5580]`. -/
def padGrid257 : Nat :=
  999990070510200505103003050720030507100599999001050300050503100304982003049810059999900104925005049260030486500304864005999990010479900504800003047300030472900599999001046540050465500304577003045760059999900104495005044960030441200304411005999990010432400504325003042350030423400599999001041420050414300304049003040480059999900103889002038870020388800103890003036900030368800103687002036890029999900103481002034790020348000103482003032660030326400103263002032650029999900103042002030400020304100103043003028130030281100102810002028120029999900102574002025720020257300102575003023300030232800102327002023290029999900102077002020750020207600102078003018190030181700101816002018180029999900101553002015510020155200101554003012830030128100101280002012820029999900101004002010020020100300101005003007200030071800100717002007190029999900100428002004260020042700100429003001320030013000100129002001310029999900105251002052490020525000105252003055490030554700105546002055480029999900105839002058370020583800105840003061250030612300106122002061240029999900106402002064000020640100106403003066740030667200106671002066730029999900106938002069360020693700106939003071980030719600107195002071970029999900107449002074470020744800107450003076950030769300107692002076940029999900107932002079300020793100107933003081630030816100108160002081620029999900108385002083830020838400108386003086020030860000108599002086010029999900108809002088070020880800108810003090100030900800109007002090090029999900109168005091690030926300309262005999990010935400509355003094450030944400599999001095310050953200309616003096150059999900109696005096970030977500309774005999990010984900509850003099200030991900599999001099840050998500310046003100450059999900110101005101020031015100310150005999990011019100510192003102230031022200599999009

/-- `pad_grid.npz`: `grid[2580, 0], grid[2580, 10], …, grid[2580, 5580]`. -/
def padGrid258 : Nat :=
  999990070510200399999001051030040507200405071004999990010503000399999001050310040498200404981004999990010492500399999001049260040486500404864004999990010479900399999001048000040473000404729004999990010465400399999001046550040457700404576004999990010449500399999001044960040441200404411004999990010432400399999001043250040423500404234004999990010414200399999001041430040404900404048004999990010388900399999001038900040369000403689004999990010348100399999001034820040326600403265004999990010304200399999001030430040281300402812004999990010257400399999001025750040233000402329004999990010207700399999001020780040181900401818004999990010155300399999001015540040128300401282004999990010100400399999001010050040072000400719004999990010042800399999001004290040013200499999001001310039999900105251003999990010525200405549004999990010554800399999001058390040584000406125004999990010612400399999001064020040640300406674004999990010667300399999001069380040693900407198004999990010719700399999001074490040745000407695004999990010769400399999001079320040793300408163004999990010816200399999001083850040838600408602004999990010860100399999001088090040881000409010004999990010900900399999001091680040916900409263004999990010926200399999001093540040935500409445004999990010944400399999001095310040953200409616004999990010961500399999001096960040969700409775004999990010977400399999001098490040985000409920004999990010991900399999001099840040998500410046004999990011004500399999001101010041010200410151004999990011015000399999001101910041019200410223004999990011022200399999009

/-- `pad_grid.npz`: `grid[2590, 0], grid[2590, 10], …, grid[2590, 5580]`. -/
def padGrid259 : Nat :=
  999990070510200205103006050720060507100299999001050300020503100604982006049810029999900104925002049260060486500604864002999990010479900204800006047300060472900299999001046540020465500604577006045760029999900104495002044960060441200604411002999990010432400204325006042350060423400299999001041420020414300604049006040480029999900103889002038920020389100203890002036900020369100203692002036890029999900103481002034840020348300203482002032660020326700203268002032650029999900103042002030450020304400203043002028130020281400202815002028120029999900102574002025770020257600202575002023300020233100202332002023290029999900102077002020800020207900202078002018190020182000201821002018180029999900101553002015560020155500201554002012830020128400201285002012820029999900101004002010070020100600201005002007200020072100200722002007190029999900100428002004310020043000200429002001320020013300200134002001310029999900105251002052540020525300205252002055490020555000205551002055480029999900105839002058420020584100205840002061250020612600206127002061240029999900106402002064050020640400206403002066740020667500206676002066730029999900106938002069410020694000206939002071980020719900207200002071970029999900107449002074520020745100207450002076950020769600207697002076940029999900107932002079350020793400207933002081630020816400208165002081620029999900108385002083880020838700208386002086020020860300208604002086010029999900108809002088120020881100208810002090100020901100209012002090090029999900109168002091690060926300609262002999990010935400209355006094450060944400299999001095310020953200609616006096150029999900109696002096970060977500609774002999990010984900209850006099200060991900299999001099840020998500610046006100450029999900110101002101020061015100610150002999990011019100210192006102230061022200299999009

/-- `pad_grid.npz`: `grid[2600, 0], grid[2600, 10], …, grid[2600, 5580]`. -/
def padGrid260 : Nat :=
  9999900705103008050720089999900105031008049820089999900104926008048650089999900104800008047300089999900104655008045770089999900104496008044120089999900104325008042350089999900104143008040490089999900103892004038910030389000103690001036910030369200499999001034840040348300303482001032660010326700303268004999990010304500403044003030430010281300102814003028150049999900102577004025760030257500102330001023310030233200499999001020800040207900302078001018190010182000301821004999990010155600401555003015540010128300101284003012850049999900101007004010060030100500100720001007210030072200499999001004310040043000300429001001320010013300300134004999990010525400405253003052520010554900105550003055510049999900105842004058410030584000106125001061260030612700499999001064050040640400306403001066740010667500306676004999990010694100406940003069390010719800107199003072000049999900107452004074510030745000107695001076960030769700499999001079350040793400307933001081630010816400308165004999990010838800408387003083860010860200108603003086040049999900108812004088110030881000109010001090110030901200499999001091690080926300899999001093550080944500899999001095320080961600899999001096970080977500899999001098500080992000899999001099850081004600899999001101020081015100899999001101920081022300899999009

/-- `pad_grid.npz`: `grid[2610, 0], grid[2610, 10], …, grid[2610, 5580]`. -/
def padGrid261 : Nat :=
  99999008051030070507200705073001999990020503100704982007049830019999900204926007048650070486600199999002048000070473000704731001999990020465500704577007045780019999900204496007044120070441300199999002043250070423500704236001999990020414300704049007040500019999900203892003038910030389300103693001036910030369200303694001999990020348400303483003034850010326900103267003032680030327000199999002030450030304400303046001028160010281400302815003028170019999900202577003025760030257800102333001023310030233200302334001999990020208000302079003020810010182200101820003018210030182300199999002015560030155500301557001012860010128400301285003999990030100700301006003010080010072300100721003007220039999900300431003004300030043200100135001001330030013400399999003052540030525300305255001055520010555000305551003999990030584200305841003058430010612800106126003061270039999900306405003064040030640600106677001066750030667600399999002069430010694100306940003069420010720100107199003072000039999900207454001074520030745100307453001076980010769600307697003999990020793700107935003079340030793600108166001081640030816500399999002083900010838800308387003083890010860500108603003086040039999900208814001088120030881100308813001090130010901100309012003999990020917000109169007092630079999900209356001093550070944500799999002095330010953200709616007999990020969800109697007097750079999900209851001098500070992000799999002099860010998500710046007999990021010300110102007101510079999900210193001101920071022300799999010

/-- `pad_grid.npz`: `grid[2620, 0], grid[2620, 10], …, grid[2620, 5580]`. -/
def padGrid262 : Nat :=
  999990070510400205103006050720060507300299999001050320020503100604982006049830029999900104927002049260060486500604866002999990010480100204800006047300060473100299999001046560020465500604577006045780029999900104497002044960060441200604413002999990010432600204325006042350060423600299999001041440020414300604049006040500029999900103894002038920020389100103893003036930030369100103692002036940029999900103486002034840020348300103485003032690030326700103268002032700029999900103047002030450020304400103046003028160030281400102815002028170029999900102579002025770020257600102578003023330030233100102332002023340029999900102082002020800020207900102081003018220030182000101821002018230029999900101558002015560020155500101557003012860030128400101285002012870029999900101009002010070020100600101008003007230030072100100722002007240029999900100433002004310020043000100432003001350030013300100134002001360029999900105256002052540020525300105255003055520030555000105551002055530029999900105844002058420020584100105843003061280030612600106127002061290029999900106407002064050020640400106406003066770030667500106676002066780029999900106943002069410020694000106942003072010030719900107200002072020029999900107454002074520020745100107453003076980030769600107697002076990029999900107937002079350020793400107936003081660030816400108165002081670029999900108390002083880020838700108389003086050030860300108604002086060029999900108814002088120020881100108813003090130030901100109012002090140029999900109170002091690060926300609264002999990010935600209355006094450060944600299999001095330020953200609616006096170029999900109698002096970060977500609776002999990010985100209850006099200060992100299999001099860020998500610046006100470029999900110103002101020061015100610152002999990011019300210192006102230061022400299999009

/-- `pad_grid.npz`: `grid[2630, 0], grid[2630, 10], …, grid[2630, 5580]`. -/
def padGrid263 : Nat :=
  99999007051040040510300405072004050730049999900105032004050310040498200404983004999990010492700404926004048650040486600499999001048010040480000404730004047310049999900104656004046550040457700404578004999990010449700404496004044120040441300499999001043260040432500404235004042360049999900104144004041430040404900404050004999990010389400399999001038930040369300499999001036940039999900103486003999990010348500403269004999990010327000399999001030470039999900103046004028160049999900102817003999990010257900399999001025780040233300499999001023340039999900102082003999990010208100401822004999990010182300399999001015580039999900101557004012860049999900101287003999990010100900399999001010080040072300499999001007240039999900100433003999990010043200400135004999990010013600399999001052560039999900105255004055520049999900105553003999990010584400399999001058430040612800499999001061290039999900106407003999990010640600406677004999990010667800399999001069430039999900106942004072010049999900107202003999990010745400399999001074530040769800499999001076990039999900107937003999990010793600408166004999990010816700399999001083900039999900108389004086050049999900108606003999990010881400399999001088130040901300499999001090140039999900109170004091690040926300409264004999990010935600409355004094450040944600499999001095330040953200409616004096170049999900109698004096970040977500409776004999990010985100409850004099200040992100499999001099860040998500410046004100470049999900110103004101020041015100410152004999990011019300410192004102230041022400499999009

/-- `pad_grid.npz`: `grid[2640, 0], grid[2640, 10], …, grid[2640, 5580]`. -/
def padGrid264 : Nat :=
  999990070510400605103002050720020507300699999001050320060503100204982002049830069999900104927006049260020486500204866006999990010480100604800002047300020473100699999001046560060465500204577002045780069999900104497006044960020441200204413006999990010432600604325002042350020423600699999001041440060414300204049002040500069999900103894002038950020389600203893002036930020369600203695002036940029999900103486002034870020348800203485002032690020327200203271002032700029999900103047002030480020304900203046002028160020281900202818002028170029999900102579002025800020258100202578002023330020233600202335002023340029999900102082002020830020208400202081002018220020182500201824002018230029999900101558002015590020156000201557002012860020128900201288002012870029999900101009002010100020101100201008002007230020072600200725002007240029999900100433002004340020043500200432002001350020013800200137002001360029999900105256002052570020525800205255002055520020555500205554002055530029999900105844002058450020584600205843002061280020613100206130002061290029999900106407002064080020640900206406002066770020668000206679002066780029999900106943002069440020694500206942002072010020720400207203002072020029999900107454002074550020745600207453002076980020770100207700002076990029999900107937002079380020793900207936002081660020816900208168002081670029999900108390002083910020839200208389002086050020860800208607002086060029999900108814002088150020881600208813002090130020901600209015002090140029999900109170006091690020926300209264006999990010935600609355002094450020944600699999001095330060953200209616002096170069999900109698006096970020977500209776006999990010985100609850002099200020992100699999001099860060998500210046002100470069999900110103006101020021015100210152006999990011019300610192002102230021022400699999009

/-- `pad_grid.npz`: `grid[2650, 0], grid[2650, 10], …, grid[2650, 5580]`. -/
def padGrid265 : Nat :=
  9999900705104007999990020507300799999001050320079999900204983007999990010492700799999002048660079999900104801007999990020473100799999001046560079999900204578007999990010449700799999002044130079999900104326007999990020423600799999001041440079999900204050007999990010389500403896003999990020369600303695004999990010348700403488003999990020327200303271004999990010304800403049003999990020281900302818004999990010258000402581003999990020233600302335004999990010208300402084003999990020182500301824004999990010155900401560003999990020128900301288004999990010101000401011003999990020072600300725004999990010043400400435003999990020013800300137004999990010525700405258003999990020555500305554004999990010584500405846003999990020613100306130004999990010640800406409003999990020668000306679004999990010694400406945003999990020720400307203004999990010745500407456003999990020770100307700004999990010793800407939003999990020816900308168004999990010839100408392003999990020860800308607004999990010881500408816003999990020901600309015004999990010917000799999002092640079999900109356007999990020944600799999001095330079999900209617007999990010969800799999002097760079999900109851007999990020992100799999001099860079999900210047007999990011010300799999002101520079999900110193007999990021022400799999009

/-- `pad_grid.npz`: `grid[2660, 0], grid[2660, 10], …, grid[2660, 5580]`. -/
def padGrid266 : Nat :=
  999990070510400705105001050740010507300799999001050320070503300104984001049830079999900104927007049280010486700104866007999990010480100704802001047320010473100799999001046560070465700104579001045780079999900104497007044980010441400104413007999990010432600704327001042370010423600799999001041440070414500104051001040500079999900103897001038950030389600303898001036980010369600303695003036970019999900103489001034870030348800303490001032740010327200303271003032730019999900103050001030480030304900303051001028210010281900302818003028200019999900102582001025800030258100302583001023380010233600302335003023370019999900102085001020830030208400302086001018270010182500301824003018260019999900101561001015590030156000301562001012910010128900301288003012900019999900101012001010100030101100301013001007280010072600300725003007270019999900100436001004340030043500300437001001400010013800300137003001390019999900105259001052570030525800305260001055570010555500305554003055560019999900105847001058450030584600305848001061330010613100306130003061320019999900106410001064080030640900306411001066820010668000306679003066810019999900106946001069440030694500306947001072060010720400307203003072050019999900107457001074550030745600307458001077030010770100307700003077020019999900107940001079380030793900307941001081710010816900308168003081700019999900108393001083910030839200308394001086100010860800308607003086090019999900108817001088150030881600308818001090180010901600309015003090170019999900109170007091710010926500109264007999990010935600709357001094470010944600799999001095330070953400109618001096170079999900109698007096990010977700109776007999990010985100709852001099220010992100799999001099860070998700110048001100470079999900110103007101040011015300110152007999990011019300710194001102250011022400799999009

/-- `pad_grid.npz`: `grid[2670, 0], grid[2670, 10], …, grid[2670, 5580]`. -/
def padGrid267 : Nat :=
  9999900705104005051050030507400305073005999990010503200505033003049840030498300599999001049270050492800304867003048660059999900104801005048020030473200304731005999990010465600504657003045790030457800599999001044970050449800304414003044130059999900104326005043270030423700304236005999990010414400504145003040510030405000599999001038970029999900103895001038960010389800303698003036960010369500199999001036970029999900103489002999990010348700103488001034900030327400303272001032710019999900103273002999990010305000299999001030480010304900103051003028210030281900102818001999990010282000299999001025820029999900102580001025810010258300302338003023360010233500199999001023370029999900102085002999990010208300102084001020860030182700301825001018240019999900101826002999990010156100299999001015590010156000101562003012910030128900101288001999990010129000299999001010120029999900101010001010110010101300300728003007260010072500199999001007270029999900100436002999990010043400100435001004370030014000300138001001370019999900100139002999990010525900299999001052570010525800105260003055570030555500105554001999990010555600299999001058470029999900105845001058460010584800306133003061310010613000199999001061320029999900106410002999990010640800106409001064110030668200306680001066790019999900106681002999990010694600299999001069440010694500106947003072060030720400107203001999990010720500299999001074570029999900107455001074560010745800307703003077010010770000199999001077020029999900107940002999990010793800107939001079410030817100308169001081680019999900108170002999990010839300299999001083910010839200108394003086100030860800108607001999990010860900299999001088170029999900108815001088160010881800309018003090160010901500199999001090170029999900109170005091710030926500309264005999990010935600509357003094470030944600599999001095330050953400309618003096170059999900109698005096990030977700309776005999990010985100509852003099220030992100599999001099860050998700310048003100470059999900110103005101040031015300310152005999990011019300510194003102250031022400599999009

/-- `pad_grid.npz`: `grid[2680, 0], grid[2680, 10], …, grid[2680, 5580]`. -/
def padGrid268 : Nat :=
  99999007051040030510500505074005050730039999900105032003050330050498400504983003999990010492700304928005048670050486600399999001048010030480200504732005047310039999900104656003046570050457900504578003999990010449700304498005044140050441300399999001043260030432700504237005042360039999900104144003041450050405100504050003999990010389700303900001038980040369800403700001036970039999900103489003034920010349000403274004032760010327300399999001030500030305300103051004028210040282300102820003999990010258200302585001025830040233800402340001023370039999900102085003020880010208600401827004018290010182600399999001015610030156400101562004012910040129300101290003999990010101200301015001010130040072800400730001007270039999900100436003004390010043700400140004001420010013900399999001052590030526200105260004055570040555900105556003999990010584700305850001058480040613300406135001061320039999900106410003064130010641100406682004066840010668100399999001069460030694900106947004072060040720800107205003999990010745700307460001074580040770300407705001077020039999900107940003079430010794100408171004081730010817000399999001083930030839600108394004086100040861200108609003999990010881700308820001088180040901800409020001090170039999900109170003091710050926500509264003999990010935600309357005094470050944600399999001095330030953400509618005096170039999900109698003096990050977700509776003999990010985100309852005099220050992100399999001099860030998700510048005100470039999900110103003101040051015300510152003999990011019300310194005102250051022400399999009

/-- `pad_grid.npz`: `grid[2690, 0], grid[2690, 10], …, grid[2690, 5580]`. -/
def padGrid269 : Nat :=
  99999007051040019999900105105006050740069999900105073001999990010503200199999001050330060498400699999001049830019999900104927001999990010492800604867006999990010486600199999001048010019999900104802006047320069999900104731001999990010465600199999001046570060457900699999001045780019999900104497001999990010449800604414006999990010441300199999001043260019999900104327006042370069999900104236001999990010414400199999001041450060405100699999001040500019999900103897001999990010390000203899002038980020369800203699002037000029999900103697001999990010348900199999001034920020349100203490002032740020327500203276002999990010327300199999001030500019999900103053002030520020305100202821002028220020282300299999001028200019999900102582001999990010258500202584002025830020233800202339002023400029999900102337001999990010208500199999001020880020208700202086002018270020182800201829002999990010182600199999001015610019999900101564002015630020156200201291002012920020129300299999001012900019999900101012001999990010101500201014002010130020072800200729002007300029999900100727001999990010043600199999001004390020043800200437002001400020014100200142002999990010013900199999001052590019999900105262002052610020526000205557002055580020555900299999001055560019999900105847001999990010585000205849002058480020613300206134002061350029999900106132001999990010641000199999001064130020641200206411002066820020668300206684002999990010668100199999001069460019999900106949002069480020694700207206002072070020720800299999001072050019999900107457001999990010746000207459002074580020770300207704002077050029999900107702001999990010794000199999001079430020794200207941002081710020817200208173002999990010817000199999001083930019999900108396002083950020839400208610002086110020861200299999001086090019999900108817001999990010882000208819002088180020901800209019002090200029999900109017001999990010917000199999001091710060926500699999001092640019999900109356001999990010935700609447006999990010944600199999001095330019999900109534006096180069999900109617001999990010969800199999001096990060977700699999001097760019999900109851001999990010985200609922006999990010992100199999001099860019999900109987006100480069999900110047001999990011010300199999001101040061015300699999001101520019999900110193001999990011019400610225006999990011022400199999009

/-- `pad_grid.npz`: `grid[2700, 0], grid[2700, 10], …, grid[2700, 5580]`. -/
def padGrid270 : Nat :=
  999990070510500805074008999990010503300804984008999990010492800804867008999990010480200804732008999990010465700804579008999990010449800804414008999990010432700804237008999990010414500804051008999990010390000403899004036990040370000499999001034920040349100403275004032760049999900103053004030520040282200402823004999990010258500402584004023390040234000499999001020880040208700401828004018290049999900101564004015630040129200401293004999990010101500401014004007290040073000499999001004390040043800400141004001420049999900105262004052610040555800405559004999990010585000405849004061340040613500499999001064130040641200406683004066840049999900106949004069480040720700407208004999990010746000407459004077040040770500499999001079430040794200408172004081730049999900108396004083950040861100408612004999990010882000408819004090190040902000499999001091710080926500899999001093570080944700899999001095340080961800899999001096990080977700899999001098520080992200899999001099870081004800899999001101040081015300899999001101940081022500899999009

/-- `pad_grid.npz`: `grid[2710, 0], grid[2710, 10], …, grid[2710, 5580]`. -/
def padGrid271 : Nat :=
  99999007051060010510500705074007050750019999900105034001050330070498400704985001999990010492900104928007048670070486800199999001048030010480200704732007047330019999900104658001046570070457900704580001999990010449900104498007044140070441500199999001043280010432700704237007042380019999900104146001041450070405100704052001999990010390200103900003038990029999900103901001037010010369900303700003037020019999900103494001034920030349100299999001034930010327700103275003032760030327800199999001030550010305300303052002999990010305400102824001999990010282200202823003028250019999900102587001025850030258400299999001025860010234100199999001023390020234000302342001999990010209000102088003020870029999900102089001018300019999900101828002018290030183100199999001015660010156400301563002999990010156500101294001999990010129200201293003012950019999900101017001010150030101400299999001010160010073100199999001007290020073000300732001999990010044100100439003004380029999900100440001001430019999900100141002001420030014400199999001052640010526200305261002999990010526300105560001999990010555800205559003055610019999900105852001058500030584900299999001058510010613600199999001061340020613500306137001999990010641500106413003064120029999900106414001066850019999900106683002066840030668600199999001069510010694900306948002999990010695000107209001999990010720700207208003072100019999900107462001074600030745900299999001074610010770600199999001077040020770500307707001999990010794500107943003079420029999900107944001081740019999900108172002081730030817500199999001083980010839600308395003083970010861300199999001086110020861200308614001999990010882200108820003088190030882100109021001999990010901900209020003090220019999900109172001091710070926500709266001999990010935800109357007094470070944800199999001095350010953400709618007096190019999900109700001096990070977700709778001999990010985300109852007099220070992300199999001099880010998700710048007100490019999900110105001101040071015300710154001999990011019500110194007102250071022600199999009

/-- `pad_grid.npz`: `grid[2720, 0], grid[2720, 10], …, grid[2720, 5580]`. -/
def padGrid272 : Nat :=
  999990070510600305105005050740050507500399999001050340030503300504984005049850039999900104929003049280050486700504868003999990010480300304802005047320050473300399999001046580030465700504579005045800039999900104499003044980050441400504415003999990010432800304327005042370050423800399999001041460030414500504051005040520039999900103902003039000010389900103901003037010030369900103700001037020039999900103494003034920010349100103493003032770030327500103276001032780039999900103055003030530010305200103054003028240030282200102823001028250039999900102587003025850010258400102586003023410030233900102340001023420039999900102090003020880010208700102089003018300030182800101829001018310039999900101566003015640010156300101565003012940030129200101293001012950039999900101017003010150010101400101016003007310030072900100730001007320039999900100441003004390010043800100440003001430030014100100142001001440039999900105264003052620010526100105263003055600030555800105559001055610039999900105852003058500010584900105851003061360030613400106135001061370039999900106415003064130010641200106414003066850030668300106684001066860039999900106951003069490010694800106950003072090030720700107208001072100039999900107462003074600010745900107461003077060030770400107705001077070039999900107945003079430010794200107944003081740030817200108173001081750039999900108398003083960010839500108397003086130030861100108612001086140039999900108822003088200010881900108821003090210030901900109020001090220039999900109172003091710050926500509266003999990010935800309357005094470050944800399999001095350030953400509618005096190039999900109700003096990050977700509778003999990010985300309852005099220050992300399999001099880030998700510048005100490039999900110105003101040051015300510154003999990011019500310194005102250051022600399999009

/-- `pad_grid.npz`: `grid[2730, 0], grid[2730, 10], …, grid[2730, 5580]`. -/
def padGrid273 : Nat :=
  9999900705106004051050040507400399999001050750049999900105034004050330040498400399999001049850049999900104929004049280040486700399999001048680049999900104803004048020040473200399999001047330049999900104658004046570040457900399999001045800049999900104499004044980040441400399999001044150049999900104328004043270040423700399999001042380049999900104146004041450040405100399999001040520049999900103902003039030010390100403701004037030010370200399999001034940030349500103493004032770040327900103278003999990010305500303056001030540040282400402826001028250039999900102587003025880010258600402341004023430010234200399999001020900030209100102089004018300040183200101831003999990010156600301567001015650040129400401296001012950039999900101017003010180010101600400731004007330010073200399999001004410030044200100440004001430040014500100144003999990010526400305265001052630040556000405562001055610039999900105852003058530010585100406136004061380010613700399999001064150030641600106414004066850040668700106686003999990010695100306952001069500040720900407211001072100039999900107462003074630010746100407706004077080010770700399999001079450030794600107944004081740040817600108175003999990010839800308399001083970040861300408615001086140039999900108822003088230010882100409021004090230010902200399999001091720049999900109171003092650040926600499999001093580049999900109357003094470040944800499999001095350049999900109534003096180040961900499999001097000049999900109699003097770040977800499999001098530049999900109852003099220040992300499999001099880049999900109987003100480041004900499999001101050049999900110104003101530041015400499999001101950049999900110194003102250041022600499999009

/-- `pad_grid.npz`: `grid[2740, 0], grid[2740, 10], …, grid[2740, 5580]`. -/
def padGrid274 : Nat :=
  99999007051060060510500205074002050750069999900105034006050330020498400204985006999990010492900604928002048670020486800699999001048030060480200204732002047330069999900104658006046570020457900204580006999990010449900604498002044140020441500699999001043280060432700204237002042380069999900104146006041450020405100204052006999990010390200103903003039040020390100203701002037040020370300299999001037020019999900103494001034950030349600203493002032770020328000203279002999990010327800199999001030550010305600303057002030540020282400202827002028260029999900102825001999990010258700102588003025890020258600202341002023440020234300299999001023420019999900102090001020910030209200202089002018300020183300201832002999990010183100199999001015660010156700301568002015650020129400201297002012960030129500199999001010170010101800301019002010160020073100200734002007330030073200199999001004410010044200300443002004400020014300200146002001450030014400199999001052640010526500305266002052630020556000205563002055620030556100199999001058520010585300305854002058510020613600206139002061380030613700199999001064150010641600306417002064140020668500206688002066870030668600199999001069510019999900106952002069530020695000207209002072120020721100307210001999990010746200199999001074630020746400207461002077060020770900207708003077070019999900107945001999990010794600207947002079440020817400208177002081760030817500199999001083980019999900108399002084000020839700208613002086160020861500308614001999990010882200199999001088230020882400208821002090210020902400209023003090220019999900109172006091710020926500209266006999990010935800609357002094470020944800699999001095350060953400209618002096190069999900109700006096990020977700209778006999990010985300609852002099220020992300699999001099880060998700210048002100490069999900110105006101040021015300210154006999990011019500610194002102250021022600699999009

/-- `pad_grid.npz`: `grid[2750, 0], grid[2750, 10], …, grid[2750, 5580]`. -/
def padGrid275 : Nat :=
  999990070510600805075008999990010503400804985008999990010492900804868008999990010480300804733008999990010465800804580008999990010449900804415008999990010432800804238008999990010414600804052008999990010390300403904004037040040370300499999001034950040349600403280004032790049999900103056004030570040282700402826004999990010258800402589004023440040234300499999001020910040209200401833004018320049999900101567004015680040129700401296004999990010101800401019004007340040073300499999001004420040044300400146004001450049999900105265004052660040556300405562004999990010585300405854004061390040613800499999001064160040641700406688004066870049999900106952004069530040721200407211004999990010746300407464004077090040770800499999001079460040794700408177004081760049999900108399004084000040861600408615004999990010882300408824004090240040902300499999001091720080926600899999001093580080944800899999001095350080961900899999001097000080977800899999001098530080992300899999001099880081004900899999001101050081015400899999001101950081022600899999009

/-- `pad_grid.npz`: `grid[2760, 0], grid[2760, 10], …, grid[2760, 5580]`. -/
def padGrid276 : Nat :=
  999990070510600605107002050760019999900105075006999990010503400605035002049860019999900104985006999990010492900604930002048690019999900104868006999990010480300604804002047340019999900104733006999990010465800604659002045810019999900104580006999990010449900699999001045000010441600199999001044150069999900104328006999990010432900104239001999990010423800699999001041460069999900104147001040530019999900104052006999990010390500103903003039040029999900103906001037060019999900103704002037030030370500199999001034970010349500303496002999990010349800103282001999990010328000203279003032810019999900103058001030560030305700299999001030590010282900199999001028270020282600302828001999990010259000102588003025890029999900102591001023460019999900102344002023430030234500199999001020930010209100302092002999990010209400101835001999990010183300201832003018340019999900101569001015670030156800299999001015700010129900199999001012970020129600301298001999990010102000101018003010190029999900101021001007360019999900100734002007330030073500199999001004440010044200300443002999990010044500100148001999990010014600200145003001470019999900105267001052650030526600299999001052680010556500199999001055630020556200305564001999990010585500105853003058540029999900105856001061410019999900106139002061380030614000199999001064180010641600306417002999990010641900106690001999990010668800206687003066890019999900106954001069520030695300299999001069550010721400199999001072120020721100307213001999990010746500107463003074640029999900107466001077110019999900107709002077080030771000199999001079480010794600307947002999990010794900108179001999990010817700208176003081780019999900108401001083990030840000299999001084020010861800199999001086160020861500308617001999990010882500108823003088240029999900108826001090260019999900109024002090230030902500199999001091720069999900109173001092670019999900109266006999990010935800699999001093590010944900199999001094480069999900109535006999990010953600109620001999990010961900699999001097000069999900109701001097790020977800699999001098530069999900109854001099240020992300699999001099880069999900109989001100500021004900699999001101050069999900110106001101550021015400699999001101950069999900110196001102270021022600699999009

/-- `pad_grid.npz`: `grid[2770, 0], grid[2770, 10], …, grid[2770, 5580]`. -/
def padGrid277 : Nat :=
  999990070510600505107003050760030507500599999001050340050503500304986003049850059999900104929005049300030486900304868005999990010480300504804003047340030473300599999001046580050465900304581003045800059999900104499005045000030441600304415005999990010432800504329003042390030423800599999001041460050414700304053003040520059999900103905003039030010390400103906003037060030370400103703001037050039999900103497003034950010349600103498003032820030328000103279001032810039999900103058003030560010305700103059003028290030282700102826001028280039999900102590003025880010258900102591003023460030234400102343001023450039999900102093003020910010209200102094003018350030183300101832001018340039999900101569003015670010156800101570003012990030129700101296001012980039999900101020003010180010101900101021003007360030073400100733001007350039999900100444003004420010044300100445003001480030014600100145001001470039999900105267003052650010526600105268003055650030556300105562001055640039999900105855003058530010585400105856003061410030613900106138001061400039999900106418003064160010641700106419003066900030668800106687001066890039999900106954003069520010695300106955003072140030721200107211001072130039999900107465003074630010746400107466003077110030770900107708001077100039999900107948003079460010794700107949003081790030817700108176001081780039999900108401003083990010840000108402003086180030861600108615001086170039999900108825003088230010882400108826003090260030902400109023001090250039999900109172005091730030926700309266005999990010935800509359003094490030944800599999001095350050953600309620003096190059999900109700005097010030977900309778005999990010985300509854003099240030992300599999001099880050998900310050003100490059999900110105005101060031015500310154005999990011019500510196003102270031022600599999009

/-- `pad_grid.npz`: `grid[2780, 0], grid[2780, 10], …, grid[2780, 5580]`. -/
def padGrid278 : Nat :=
  999990070510600305107005050760050507500399999001050340030503500504986005049850039999900104929003049300050486900504868003999990010480300304804005047340050473300399999001046580030465900504581005045800039999900104499003045000050441600504415003999990010432800304329005042390050423800399999001041460030414700504053005040520039999900103905003039080019999900103906003037060039999900103708001037050039999900103497003035000019999900103498003032820039999900103284001032810039999900103058003030610019999900103059003028290039999900102831001028280039999900102590003025930019999900102591003023460039999900102348001023450039999900102093003020960019999900102094003018350039999900101837001018340039999900101569003015720019999900101570003012990039999900101301001012980039999900101020003010230019999900101021003007360039999900100738001007350039999900100444003004470019999900100445003001480039999900100150001001470039999900105267003052700019999900105268003055650039999900105567001055640039999900105855003058580019999900105856003061410039999900106143001061400039999900106418003064210019999900106419003066900039999900106692001066890039999900106954003069570019999900106955003072140039999900107216001072130039999900107465003074680019999900107466003077110039999900107713001077100039999900107948003079510019999900107949003081790039999900108181001081780039999900108401003084040019999900108402003086180039999900108620001086170039999900108825003088280019999900108826003090260039999900109028001090250039999900109172003091730050926700509266003999990010935800309359005094490050944800399999001095350030953600509620005096190039999900109700003097010050977900509778003999990010985300309854005099240050992300399999001099880030998900510050005100490039999900110105003101060051015500510154003999990011019500310196005102270051022600399999009

/-- `pad_grid.npz`: `grid[2790, 0], grid[2790, 10], …, grid[2790, 5580]`. -/
def padGrid279 : Nat :=
  999990070510600105107007050760070507500199999001050340010503500704986007049850019999900104929001049300070486900704868001999990010480300104804007047340070473300199999001046580010465900704581007045800019999900104499001045000070441600704415001999990010432800104329007042390070423800199999001041460010414700704053007040520019999900103905001039080030390700203906002037060020370700203708003037050019999900103497001035000030349900203498002032820020328300203284003032810019999900103058001030610030306000203059002028290020283000202831003028280019999900102590001025930030259200202591002023460020234700202348003023450019999900102093001020960030209500202094002018350020183600201837003018340019999900101569001015720030157100201570002012990020130000201301003012980019999900101020001010230030102200201021002007360020073700200738003007350019999900100444001004470030044600200445002001480020014900200150003001470019999900105267001052700030526900205268002055650020556600205567003055640019999900105855001058580030585700205856002061410020614200206143003061400019999900106418001064210030642000206419002066900020669100206692003066890019999900106954001069570030695600206955002072140020721500207216003072130019999900107465001074680030746700207466002077110020771200207713003077100019999900107948001079510030795000207949002081790020818000208181003081780019999900108401001084040030840300208402002086180020861900208620003086170019999900108825001088280030882700208826002090260020902700209028003090250019999900109172001091730070926700709266001999990010935800109359007094490070944800199999001095350010953600709620007096190019999900109700001097010070977900709778001999990010985300109854007099240070992300199999001099880010998900710050007100490019999900110105001101060071015500710154001999990011019500110196007102270071022600199999009

/-- `pad_grid.npz`: `grid[2800, 0], grid[2800, 10], …, grid[2800, 5580]`. -/
def padGrid280 : Nat :=
  999990070510700805076008999990010503500804986008999990010493000804869008999990010480400804734008999990010465900804581008999990010450000804416008999990010432900804239008999990010414700804053008999990010390800403907004037070040370800499999001035000040349900403283004032840049999900103061004030600040283000402831004999990010259300402592004023470040234800499999001020960040209500401836004018370049999900101572004015710040130000401301004999990010102300401022004007370040073800499999001004470040044600400149004001500049999900105270004052690040556600405567004999990010585800405857004061420040614300499999001064210040642000406691004066920049999900106957004069560040721500407216004999990010746800407467004077120040771300499999001079510040795000408180004081810049999900108404004084030040861900408620004999990010882800408827004090270040902800499999001091730080926700899999001093590080944900899999001095360080962000899999001097010080977900899999001098540080992400899999001099890081005000899999001101060081015500899999001101960081022700899999009

/-- `pad_grid.npz`: `grid[2810, 0], grid[2810, 10], …, grid[2810, 5580]`. -/
def padGrid281 : Nat :=
  999990070510800105107007050760070507700199999001050360010503500704986007049870019999900104931001049300070486900704870001999990010480500104804007047340070473500199999001046600010465900704581007045820019999900104501001045000070441600704417001999990010433000104329007042390070424000199999001041480010414700704053007040540019999900103910001039080030390700203909002037090020370700203708003037100019999900103502001035000030349900203501002032850020328300203284003032860019999900103063001030610030306000203062002028320020283000202831003028330019999900102595001025930030259200202594002023490020234700202348003023500019999900102098001020960030209500202097002018380020183600201837003018390019999900101574001015720030157100201573002013020020130000201301003013030019999900101025001010230030102200201024002007390020073700200738003007400019999900100449001004470030044600200448002001510020014900200150003001520019999900105272001052700030526900205271002055680020556600205567003055690019999900105860001058580030585700205859002061440020614200206143003061450019999900106423001064210030642000206422002066930020669100206692003066940019999900106959001069570030695600206958002072170020721500207216003072180019999900107470001074680030746700207469002077140020771200207713003077150019999900107953001079510030795000207952002081820020818000208181003081830019999900108406001084040030840300208405002086210020861900208620003086220019999900108830001088280030882700208829002090290020902700209028003090300019999900109174001091730070926700709268001999990010936000109359007094490070945000199999001095370010953600709620007096210019999900109702001097010070977900709780001999990010985500109854007099240070992500199999001099900010998900710050007100510019999900110107001101060071015500710156001999990011019700110196007102270071022800199999009

/-- `pad_grid.npz`: `grid[2820, 0], grid[2820, 10], …, grid[2820, 5580]`. -/
def padGrid282 : Nat :=
  999990070510800305107005050760050507700399999001050360030503500504986005049870039999900104931003049300050486900504870003999990010480500304804005047340050473500399999001046600030465900504581005045820039999900104501003045000050441600504417003999990010433000304329005042390050424000399999001041480030414700504053005040540039999900103910003039080019999900103909003037090039999900103708001037100039999900103502003035000019999900103501003032850039999900103284001032860039999900103063003030610019999900103062003028320039999900102831001028330039999900102595003025930019999900102594003023490039999900102348001023500039999900102098003020960019999900102097003018380039999900101837001018390039999900101574003015720019999900101573003013020039999900101301001013030039999900101025003010230019999900101024003007390039999900100738001007400039999900100449003004470019999900100448003001510039999900100150001001520039999900105272003052700019999900105271003055680039999900105567001055690039999900105860003058580019999900105859003061440039999900106143001061450039999900106423003064210019999900106422003066930039999900106692001066940039999900106959003069570019999900106958003072170039999900107216001072180039999900107470003074680019999900107469003077140039999900107713001077150039999900107953003079510019999900107952003081820039999900108181001081830039999900108406003084040019999900108405003086210039999900108620001086220039999900108830003088280019999900108829003090290039999900109028001090300039999900109174003091730050926700509268003999990010936000309359005094490050945000399999001095370030953600509620005096210039999900109702003097010050977900509780003999990010985500309854005099240050992500399999001099900030998900510050005100510039999900110107003101060051015500510156003999990011019700310196005102270051022800399999009

/-- `pad_grid.npz`: `grid[2830, 0], grid[2830, 10], …, grid[2830, 5580]`. -/
def padGrid283 : Nat :=
  999990070510800505107003050760030507700599999001050360050503500304986003049870059999900104931005049300030486900304870005999990010480500504804003047340030473500599999001046600050465900304581003045820059999900104501005045000030441600304417005999990010433000504329003042390030424000599999001041480050414700304053003040540059999900103910003039110010391200103909003037090030371200103711001037100039999900103502003035030010350400103501003032850030328800103287001032860039999900103063003030640010306500103062003028320030283500102834001028330039999900102595003025960010259700102594003023490030235200102351001023500039999900102098003020990010210000102097003018380030184100101840001018390039999900101574003015750010157600101573003013020030130500101304001013030039999900101025003010260010102700101024003007390030074200100741001007400039999900100449003004500010045100100448003001510030015400100153001001520039999900105272003052730010527400105271003055680030557100105570001055690039999900105860003058610010586200105859003061440030614700106146001061450039999900106423003064240010642500106422003066930030669600106695001066940039999900106959003069600010696100106958003072170030722000107219001072180039999900107470003074710010747200107469003077140030771700107716001077150039999900107953003079540010795500107952003081820030818500108184001081830039999900108406003084070010840800108405003086210030862400108623001086220039999900108830003088310010883200108829003090290030903200109031001090300039999900109174005091730030926700309268005999990010936000509359003094490030945000599999001095370050953600309620003096210059999900109702005097010030977900309780005999990010985500509854003099240030992500599999001099900050998900310050003100510059999900110107005101060031015500310156005999990011019700510196003102270031022800599999009

/-- `pad_grid.npz`: `grid[2840, 0], grid[2840, 10], …, grid[2840, 5580]`. -/
def padGrid284 : Nat :=
  999990070510800605107002050760019999900105077006999990010503600605035002049860019999900104987006999990010493100604930002048690019999900104870006999990010480500604804002047340019999900104735006999990010466000604659002045810019999900104582006999990010450100699999001045000010441600199999001044170069999900104330006999990010432900104239001999990010424000699999001041480069999900104147001040530019999900104054006999990010391000103911003039120029999900103909001037090019999900103712002037110030371000199999001035020010350300303504002999990010350100103285001999990010328800203287003032860019999900103063001030640030306500299999001030620010283200199999001028350020283400302833001999990010259500102596003025970029999900102594001023490019999900102352002023510030235000199999001020980010209900302100002999990010209700101838001999990010184100201840003018390019999900101574001015750030157600299999001015730010130200199999001013050020130400301303001999990010102500101026003010270029999900101024001007390019999900100742002007410030074000199999001004490010045000300451002999990010044800100151001999990010015400200153003001520019999900105272001052730030527400299999001052710010556800199999001055710020557000305569001999990010586000105861003058620029999900105859001061440019999900106147002061460030614500199999001064230010642400306425002999990010642200106693001999990010669600206695003066940019999900106959001069600030696100299999001069580010721700199999001072200020721900307218001999990010747000107471003074720029999900107469001077140019999900107717002077160030771500199999001079530010795400307955002999990010795200108182001999990010818500208184003081830019999900108406001084070030840800299999001084050010862100199999001086240020862300308622001999990010883000108831003088320029999900108829001090290019999900109032002090310030903000199999001091740069999900109173001092670019999900109268006999990010936000699999001093590010944900199999001094500069999900109537006999990010953600109620001999990010962100699999001097020069999900109701001097790020978000699999001098550069999900109854001099240020992500699999001099900069999900109989001100500021005100699999001101070069999900110106001101550021015600699999001101970069999900110196001102270021022800699999009

/-- `pad_grid.npz`: `grid[2850, 0], grid[2850, 10], …, grid[2850, 5580]`. -/
def padGrid285 : Nat :=
  999990070510800805077008999990010503600804987008999990010493100804870008999990010480500804735008999990010466000804582008999990010450100804417008999990010433000804240008999990010414800804054008999990010391100403912004037120040371100499999001035030040350400403288004032870049999900103064004030650040283500402834004999990010259600402597004023520040235100499999001020990040210000401841004018400049999900101575004015760040130500401304004999990010102600401027004007420040074100499999001004500040045100400154004001530049999900105273004052740040557100405570004999990010586100405862004061470040614600499999001064240040642500406696004066950049999900106960004069610040722000407219004999990010747100407472004077170040771600499999001079540040795500408185004081840049999900108407004084080040862400408623004999990010883100408832004090320040903100499999001091740080926800899999001093600080945000899999001095370080962100899999001097020080978000899999001098550080992500899999001099900081005100899999001101070081015600899999001101970081022800899999009

/-- `pad_grid.npz`: `grid[2860, 0], grid[2860, 10], …, grid[2860, 5580]`. -/
def padGrid286 : Nat :=
  99999007051080060510900205078002050770069999900105036006050370020498800204987006999990010493100604932002048710020487000699999001048050060480600204736002047350069999900104660006046610020458300204582006999990010450100604502002044180020441700699999001043300060433100204241002042400069999900104148006041490020405500204054006999990010391300103911003039120020391400203714002037120020371100299999001037130019999900103505001035030030350400203506002032900020328800203287002999990010328900199999001030660010306400303065002030670020283700202835002028340029999900102836001999990010259800102596003025970020259900202354002023520020235100299999001023530019999900102101001020990030210000202102002018430020184100201840002999990010184200199999001015770010157500301576002015780020130700201305002013040030130600199999001010280010102600301027002010290020074400200742002007410030074300199999001004520010045000300451002004530020015600200154002001530030015500199999001052750010527300305274002052760020557300205571002055700030557200199999001058630010586100305862002058640020614900206147002061460030614800199999001064260010642400306425002064270020669800206696002066950030669700199999001069620019999900106960002069610020696300207222002072200020721900307221001999990010747300199999001074710020747200207474002077190020771700207716003077180019999900107956001999990010795400207955002079570020818700208185002081840030818600199999001084090019999900108407002084080020841000208626002086240020862300308625001999990010883300199999001088310020883200208834002090340020903200209031003090330019999900109174006091750020926900209268006999990010936000609361002094510020945000699999001095370060953800209622002096210069999900109702006097030020978100209780006999990010985500609856002099260020992500699999001099900060999100210052002100510069999900110107006101080021015700210156006999990011019700610198002102290021022800699999009

/-- `pad_grid.npz`: `grid[2870, 0], grid[2870, 10], …, grid[2870, 5580]`. -/
def padGrid287 : Nat :=
  9999900705108004051090040507800399999001050770049999900105036004050370040498800399999001049870049999900104931004049320040487100399999001048700049999900104805004048060040473600399999001047350049999900104660004046610040458300399999001045820049999900104501004045020040441800399999001044170049999900104330004043310040424100399999001042400049999900104148004041490040405500399999001040540049999900103913003039110010391400403714004037110010371300399999001035050030350300103506004032900040328700103289003999990010306600303064001030670040283700402834001028360039999900102598003025960010259900402354004023510010235300399999001021010030209900102102004018430040184000101842003999990010157700301575001015780040130700401304001013060039999900101028003010260010102900400744004007410010074300399999001004520030045000100453004001560040015300100155003999990010527500305273001052760040557300405570001055720039999900105863003058610010586400406149004061460010614800399999001064260030642400106427004066980040669500106697003999990010696200306960001069630040722200407219001072210039999900107473003074710010747400407719004077160010771800399999001079560030795400107957004081870040818400108186003999990010840900308407001084100040862600408623001086250039999900108833003088310010883400409034004090310010903300399999001091740049999900109175003092690040926800499999001093600049999900109361003094510040945000499999001095370049999900109538003096220040962100499999001097020049999900109703003097810040978000499999001098550049999900109856003099260040992500499999001099900049999900109991003100520041005100499999001101070049999900110108003101570041015600499999001101970049999900110198003102290041022800499999009

/-- `pad_grid.npz`: `grid[2880, 0], grid[2880, 10], …, grid[2880, 5580]`. -/
def padGrid288 : Nat :=
  999990070510800305109005050780050507700399999001050360030503700504988005049870039999900104931003049320050487100504870003999990010480500304806005047360050473500399999001046600030466100504583005045820039999900104501003045020050441800504417003999990010433000304331005042410050424000399999001041480030414900504055005040540039999900103913003039160010391500103914003037140030371500103716001037130039999900103505003035080010350700103506003032900030329100103292001032890039999900103066003030690010306800103067003028370030283800102839001028360039999900102598003026010010260000102599003023540030235500102356001023530039999900102101003021040010210300102102003018430030184400101845001018420039999900101577003015800010157900101578003013070030130800101309001013060039999900101028003010310010103000101029003007440030074500100746001007430039999900100452003004550010045400100453003001560030015700100158001001550039999900105275003052780010527700105276003055730030557400105575001055720039999900105863003058660010586500105864003061490030615000106151001061480039999900106426003064290010642800106427003066980030669900106700001066970039999900106962003069650010696400106963003072220030722300107224001072210039999900107473003074760010747500107474003077190030772000107721001077180039999900107956003079590010795800107957003081870030818800108189001081860039999900108409003084120010841100108410003086260030862700108628001086250039999900108833003088360010883500108834003090340030903500109036001090330039999900109174003091750050926900509268003999990010936000309361005094510050945000399999001095370030953800509622005096210039999900109702003097030050978100509780003999990010985500309856005099260050992500399999001099900030999100510052005100510039999900110107003101080051015700510156003999990011019700310198005102290051022800399999009

/-- `pad_grid.npz`: `grid[2890, 0], grid[2890, 10], …, grid[2890, 5580]`. -/
def padGrid289 : Nat :=
  99999007051080010510900705078007050770019999900105036001050370070498800704987001999990010493100104932007048710070487000199999001048050010480600704736007047350019999900104660001046610070458300704582001999990010450100104502007044180070441700199999001043300010433100704241007042400019999900104148001041490070405500704054001999990010391300103916003039150029999900103914001037140010371500303716003037130019999900103505001035080030350700299999001035060010329000103291003032920030328900199999001030660010306900303068002999990010306700102837001999990010283800202839003028360019999900102598001026010030260000299999001025990010235400199999001023550020235600302353001999990010210100102104003021030029999900102102001018430019999900101844002018450030184200199999001015770010158000301579002999990010157800101307001999990010130800201309003013060019999900101028001010310030103000299999001010290010074400199999001007450020074600300743001999990010045200100455003004540029999900100453001001560019999900100157002001580030015500199999001052750010527800305277002999990010527600105573001999990010557400205575003055720019999900105863001058660030586500299999001058640010614900199999001061500020615100306148001999990010642600106429003064280029999900106427001066980019999900106699002067000030669700199999001069620010696500306964002999990010696300107222001999990010722300207224003072210019999900107473001074760030747500299999001074740010771900199999001077200020772100307718001999990010795600107959003079580029999900107957001081870019999900108188002081890030818600199999001084090010841200308411003084100010862600199999001086270020862800308625001999990010883300108836003088350030883400109034001999990010903500209036003090330019999900109174001091750070926900709268001999990010936000109361007094510070945000199999001095370010953800709622007096210019999900109702001097030070978100709780001999990010985500109856007099260070992500199999001099900010999100710052007100510019999900110107001101080071015700710156001999990011019700110198007102290071022800199999009

/-- `pad_grid.npz`: `grid[2900, 0], grid[2900, 10], …, grid[2900, 5580]`. -/
def padGrid290 : Nat :=
  999990070510900805078008999990010503700804988008999990010493200804871008999990010480600804736008999990010466100804583008999990010450200804418008999990010433100804241008999990010414900804055008999990010391600403915004037150040371600499999001035080040350700403291004032920049999900103069004030680040283800402839004999990010260100402600004023550040235600499999001021040040210300401844004018450049999900101580004015790040130800401309004999990010103100401030004007450040074600499999001004550040045400400157004001580049999900105278004052770040557400405575004999990010586600405865004061500040615100499999001064290040642800406699004067000049999900106965004069640040722300407224004999990010747600407475004077200040772100499999001079590040795800408188004081890049999900108412004084110040862700408628004999990010883600408835004090350040903600499999001091750080926900899999001093610080945100899999001095380080962200899999001097030080978100899999001098560080992600899999001099910081005200899999001101080081015700899999001101980081022900899999009

/-- `pad_grid.npz`: `grid[2910, 0], grid[2910, 10], …, grid[2910, 5580]`. -/
def padGrid291 : Nat :=
  99999007051100019999900105109006050780069999900105079001999990010503800199999001050370060498800699999001049890019999900104933001999990010493200604871006999990010487200199999001048070019999900104806006047360069999900104737001999990010466200199999001046610060458300699999001045840019999900104503001999990010450200604418006999990010441900199999001043320019999900104331006042410069999900104242001999990010415000199999001041490060405500699999001040560019999900103918001999990010391600203915002039170020371700203715002037160029999900103718001999990010351000199999001035080020350700203509002032930020329100203292002999990010329400199999001030710019999900103069002030680020307000202840002028380020283900299999001028410019999900102603001999990010260100202600002026020020235700202355002023560029999900102358001999990010210600199999001021040020210300202105002018460020184400201845002999990010184700199999001015820019999900101580002015790020158100201310002013080020130900299999001013110019999900101033001999990010103100201030002010320020074700200745002007460029999900100748001999990010045700199999001004550020045400200456002001590020015700200158002999990010016000199999001052800019999900105278002052770020527900205576002055740020557500299999001055770019999900105868001999990010586600205865002058670020615200206150002061510029999900106153001999990010643100199999001064290020642800206430002067010020669900206700002999990010670200199999001069670019999900106965002069640020696600207225002072230020722400299999001072260019999900107478001999990010747600207475002074770020772200207720002077210029999900107723001999990010796100199999001079590020795800207960002081900020818800208189002999990010819100199999001084140019999900108412002084110020841300208629002086270020862800299999001086300019999900108838001999990010883600208835002088370020903700209035002090360029999900109038001999990010917600199999001091750060926900699999001092700019999900109362001999990010936100609451006999990010945200199999001095390019999900109538006096220069999900109623001999990010970400199999001097030060978100699999001097820019999900109857001999990010985600609926006999990010992700199999001099920019999900109991006100520069999900110053001999990011010900199999001101080061015700699999001101580019999900110199001999990011019800610229006999990011023000199999009

/-- `pad_grid.npz`: `grid[2920, 0], grid[2920, 10], …, grid[2920, 5580]`. -/
def padGrid292 : Nat :=
  99999007051100030510900505078005050790039999900105038003050370050498800504989003999990010493300304932005048710050487200399999001048070030480600504736005047370039999900104662003046610050458300504584003999990010450300304502005044180050441900399999001043320030433100504241005042420039999900104150003041490050405500504056003999990010391800303916001039170040371700403716001037180039999900103510003035080010350900403293004032920010329400399999001030710030306900103070004028400040283900102841003999990010260300302601001026020040235700402356001023580039999900102106003021040010210500401846004018450010184700399999001015820030158000101581004013100040130900101311003999990010103300301031001010320040074700400746001007480039999900100457003004550010045600400159004001580010016000399999001052800030527800105279004055760040557500105577003999990010586800305866001058670040615200406151001061530039999900106431003064290010643000406701004067000010670200399999001069670030696500106966004072250040722400107226003999990010747800307476001074770040772200407721001077230039999900107961003079590010796000408190004081890010819100399999001084140030841200108413004086290040862800108630003999990010883800308836001088370040903700409036001090380039999900109176003091750050926900509270003999990010936200309361005094510050945200399999001095390030953800509622005096230039999900109704003097030050978100509782003999990010985700309856005099260050992700399999001099920030999100510052005100530039999900110109003101080051015700510158003999990011019900310198005102290051023000399999009

/-- `pad_grid.npz`: `grid[2930, 0], grid[2930, 10], …, grid[2930, 5580]`. -/
def padGrid293 : Nat :=
  9999900705110005051090030507800305079005999990010503800505037003049880030498900599999001049330050493200304871003048720059999900104807005048060030473600304737005999990010466200504661003045830030458400599999001045030050450200304418003044190059999900104332005043310030424100304242005999990010415000504149003040550030405600599999001039180029999900103919001039200010391700303717003037200010371900199999001037180029999900103510002999990010351100103512001035090030329300303296001032950019999900103294002999990010307100299999001030720010307300103070003028400030284300102842001999990010284100299999001026030029999900102604001026050010260200302357003023600010235900199999001023580029999900102106002999990010210700102108001021050030184600301849001018480019999900101847002999990010158200299999001015830010158400101581003013100030131300101312001999990010131100299999001010330029999900101034001010350010103200300747003007500010074900199999001007480029999900100457002999990010045800100459001004560030015900300162001001610019999900100160002999990010528000299999001052810010528200105279003055760030557900105578001999990010557700299999001058680029999900105869001058700010586700306152003061550010615400199999001061530029999900106431002999990010643200106433001064300030670100306704001067030019999900106702002999990010696700299999001069680010696900106966003072250030722800107227001999990010722600299999001074780029999900107479001074800010747700307722003077250010772400199999001077230029999900107961002999990010796200107963001079600030819000308193001081920019999900108191002999990010841400299999001084150010841600108413003086290030863200108631001999990010863000299999001088380029999900108839001088400010883700309037003090400010903900199999001090380029999900109176005091750030926900309270005999990010936200509361003094510030945200599999001095390050953800309622003096230059999900109704005097030030978100309782005999990010985700509856003099260030992700599999001099920050999100310052003100530059999900110109005101080031015700310158005999990011019900510198003102290031023000599999009

/-- `pad_grid.npz`: `grid[2940, 0], grid[2940, 10], …, grid[2940, 5580]`. -/
def padGrid294 : Nat :=
  999990070511000705109001050780010507900799999001050380070503700104988001049890079999900104933007049320010487100104872007999990010480700704806001047360010473700799999001046620070466100104583001045840079999900104503007045020010441800104419007999990010433200704331001042410010424200799999001041500070414900104055001040560079999900103918001039190030392000303917001037170010372000303719003037180019999900103510001035110030351200303509001032930010329600303295003032940019999900103071001030720030307300303070001028400010284300302842003028410019999900102603001026040030260500302602001023570010236000302359003023580019999900102106001021070030210800302105001018460010184900301848003018470019999900101582001015830030158400301581001013100010131300301312003013110019999900101033001010340030103500301032001007470010075000300749003007480019999900100457001004580030045900300456001001590010016200300161003001600019999900105280001052810030528200305279001055760010557900305578003055770019999900105868001058690030587000305867001061520010615500306154003061530019999900106431001064320030643300306430001067010010670400306703003067020019999900106967001069680030696900306966001072250010722800307227003072260019999900107478001074790030748000307477001077220010772500307724003077230019999900107961001079620030796300307960001081900010819300308192003081910019999900108414001084150030841600308413001086290010863200308631003086300019999900108838001088390030884000308837001090370010904000309039003090380019999900109176007091750010926900109270007999990010936200709361001094510010945200799999001095390070953800109622001096230079999900109704007097030010978100109782007999990010985700709856001099260010992700799999001099920070999100110052001100530079999900110109007101080011015700110158007999990011019900710198001102290011023000799999009

/-- `pad_grid.npz`: `grid[2950, 0], grid[2950, 10], …, grid[2950, 5580]`. -/
def padGrid295 : Nat :=
  9999900705110007999990020507900799999001050380079999900204989007999990010493300799999002048720079999900104807007999990020473700799999001046620079999900204584007999990010450300799999002044190079999900104332007999990020424200799999001041500079999900204056007999990010391900403920003999990020372000303719004999990010351100403512003999990020329600303295004999990010307200403073003999990020284300302842004999990010260400402605003999990020236000302359004999990010210700402108003999990020184900301848004999990010158300401584003999990020131300301312004999990010103400401035003999990020075000300749004999990010045800400459003999990020016200300161004999990010528100405282003999990020557900305578004999990010586900405870003999990020615500306154004999990010643200406433003999990020670400306703004999990010696800406969003999990020722800307227004999990010747900407480003999990020772500307724004999990010796200407963003999990020819300308192004999990010841500408416003999990020863200308631004999990010883900408840003999990020904000309039004999990010917600799999002092700079999900109362007999990020945200799999001095390079999900209623007999990010970400799999002097820079999900109857007999990020992700799999001099920079999900210053007999990011010900799999002101580079999900110199007999990021023000799999009

/-- `pad_grid.npz`: `grid[2960, 0], grid[2960, 10], …, grid[2960, 5580]`. -/
def padGrid296 : Nat :=
  999990070511000605111002050800020507900699999001050380060503900204990002049890069999900104933006049340020487300204872006999990010480700604808002047380020473700699999001046620060466300204585002045840069999900104503006045040020442000204419006999990010433200604333002042430020424200699999001041500060415100204057002040560069999900103921002039190020392000203922002037220020372000203719002037210029999900103513002035110020351200203514002032980020329600203295002032970029999900103074002030720020307300203075002028450020284300202842002028440029999900102606002026040020260500202607002023620020236000202359002023610029999900102109002021070020210800202110002018510020184900201848002018500029999900101585002015830020158400201586002013150020131300201312002013140029999900101036002010340020103500201037002007520020075000200749002007510029999900100460002004580020045900200461002001640020016200200161002001630029999900105283002052810020528200205284002055810020557900205578002055800029999900105871002058690020587000205872002061570020615500206154002061560029999900106434002064320020643300206435002067060020670400206703002067050029999900106970002069680020696900206971002072300020722800207227002072290029999900107481002074790020748000207482002077270020772500207724002077260029999900107964002079620020796300207965002081950020819300208192002081940029999900108417002084150020841600208418002086340020863200208631002086330029999900108841002088390020884000208842002090420020904000209039002090410029999900109176006091770020927100209270006999990010936200609363002094530020945200699999001095390060954000209624002096230069999900109704006097050020978300209782006999990010985700609858002099280020992700699999001099920060999300210054002100530069999900110109006101100021015900210158006999990011019900610200002102310021023000699999009

/-- `pad_grid.npz`: `grid[2970, 0], grid[2970, 10], …, grid[2970, 5580]`. -/
def padGrid297 : Nat :=
  99999007051100040511100405080004050790049999900105038004050390040499000404989004999990010493300404934004048730040487200499999001048070040480800404738004047370049999900104662004046630040458500404584004999990010450300404504004044200040441900499999001043320040433300404243004042420049999900104150004041510040405700404056004999990010392100399999001039220040372200499999001037210039999900103513003999990010351400403298004999990010329700399999001030740039999900103075004028450049999900102844003999990010260600399999001026070040236200499999001023610039999900102109003999990010211000401851004999990010185000399999001015850039999900101586004013150049999900101314003999990010103600399999001010370040075200499999001007510039999900100460003999990010046100400164004999990010016300399999001052830039999900105284004055810049999900105580003999990010587100399999001058720040615700499999001061560039999900106434003999990010643500406706004999990010670500399999001069700039999900106971004072300049999900107229003999990010748100399999001074820040772700499999001077260039999900107964003999990010796500408195004999990010819400399999001084170039999900108418004086340049999900108633003999990010884100399999001088420040904200499999001090410039999900109176004091770040927100409270004999990010936200409363004094530040945200499999001095390040954000409624004096230049999900109704004097050040978300409782004999990010985700409858004099280040992700499999001099920040999300410054004100530049999900110109004101100041015900410158004999990011019900410200004102310041023000499999009

/-- `pad_grid.npz`: `grid[2980, 0], grid[2980, 10], …, grid[2980, 5580]`. -/
def padGrid298 : Nat :=
  999990070511000205111006050800060507900299999001050380020503900604990006049890029999900104933002049340060487300604872002999990010480700204808006047380060473700299999001046620020466300604585006045840029999900104503002045040060442000604419002999990010433200204333006042430060424200299999001041500020415100604057006040560029999900103921002039240020392300103922003037220030372300103724002037210029999900103513002035160020351500103514003032980030329900103300002032970029999900103074002030770020307600103075003028450030284600102847002028440029999900102606002026090020260800102607003023620030236300102364002023610029999900102109002021120020211100102110003018510030185200101853002018500029999900101585002015880020158700101586003013150030131600101317002013140029999900101036002010390020103800101037003007520030075300100754002007510029999900100460002004630020046200100461003001640030016500100166002001630029999900105283002052860020528500105284003055810030558200105583002055800029999900105871002058740020587300105872003061570030615800106159002061560029999900106434002064370020643600106435003067060030670700106708002067050029999900106970002069730020697200106971003072300030723100107232002072290029999900107481002074840020748300107482003077270030772800107729002077260029999900107964002079670020796600107965003081950030819600108197002081940029999900108417002084200020841900108418003086340030863500108636002086330029999900108841002088440020884300108842003090420030904300109044002090410029999900109176002091770060927100609270002999990010936200209363006094530060945200299999001095390020954000609624006096230029999900109704002097050060978300609782002999990010985700209858006099280060992700299999001099920020999300610054006100530029999900110109002101100061015900610158002999990011019900210200006102310061023000299999009

/-- `pad_grid.npz`: `grid[2990, 0], grid[2990, 10], …, grid[2990, 5580]`. -/
def padGrid299 : Nat :=
  99999008051110070508000705079001999990020503900704990007049890019999900204934007048730070487200199999002048080070473800704737001999990020466300704585007045840019999900204504007044200070441900199999002043330070424300704242001999990020415100704057007040560019999900203924003039230030392200103722001037230030372400303721001999990020351600303515003035140010329800103299003033000030329700199999002030770030307600303075001028450010284600302847003028440019999900202609003026080030260700102362001023630030236400302361001999990020211200302111003021100010185100101852003018530030185000199999002015880030158700301586001013150010131600301317003999990030103900301038003010370010075200100753003007540039999900300463003004620030046100100164001001650030016600399999003052860030528500305284001055810010558200305583003999990030587400305873003058720010615700106158003061590039999900306437003064360030643500106706001067070030670800399999002069700010697300306972003069710010723000107231003072320039999900207481001074840030748300307482001077270010772800307729003999990020796400107967003079660030796500108195001081960030819700399999002084170010842000308419003084180010863400108635003086360039999900208841001088440030884300308842001090420010904300309044003999990020917600109177007092710079999900209362001093630070945300799999002095390010954000709624007999990020970400109705007097830079999900209857001098580070992800799999002099920010999300710054007999990021010900110110007101590079999900210199001102000071023100799999010

/-- `pad_grid.npz`: `grid[3000, 0], grid[3000, 10], …, grid[3000, 5580]`. -/
def padGrid300 : Nat :=
  9999900705111008050800089999900105039008049900089999900104934008048730089999900104808008047380089999900104663008045850089999900104504008044200089999900104333008042430089999900104151008040570089999900103924004039230030392500103725001037230030372400499999001035160040351500303517001033010010329900303300004999990010307700403076003030780010284800102846003028470049999900102609004026080030261000102365001023630030236400499999001021120040211100302113001018540010185200301853004999990010158800401587003015890010131800101316003013170049999900101039004010380030104000100755001007530030075400499999001004630040046200300464001001670010016500300166004999990010528600405285003052870010558400105582003055830049999900105874004058730030587500106160001061580030615900499999001064370040643600306438001067090010670700306708004999990010697300406972003069740010723300107231003072320049999900107484004074830030748500107730001077280030772900499999001079670040796600307968001081980010819600308197004999990010842000408419003084210010863700108635003086360049999900108844004088430030884500109045001090430030904400499999001091770080927100899999001093630080945300899999001095400080962400899999001097050080978300899999001098580080992800899999001099930081005400899999001101100081015900899999001102000081023100899999009

/-- `pad_grid.npz`: `grid[3010, 0], grid[3010, 10], …, grid[3010, 5580]`. -/
def padGrid301 : Nat :=
  999990070511200205111006050800060508100299999001050400020503900604990006049910029999900104935002049340060487300604874002999990010480900204808006047380060473900299999001046640020466300604585006045860029999900104505002045040060442000604421002999990010433400204333006042430060424400299999001041520020415100604057006040580029999900103926002039240020392300203925002037250020372300203724002037260029999900103518002035160020351500203517002033010020329900203300002033020029999900103079002030770020307600203078002028480020284600202847002028490029999900102611002026090020260800202610002023650020236300202364002023660029999900102114002021120020211100202113002018540020185200201853002018550029999900101590002015880020158700201589002013180020131600201317002013190029999900101041002010390020103800201040002007550020075300200754002007560029999900100465002004630020046200200464002001670020016500200166002001680029999900105288002052860020528500205287002055840020558200205583002055850029999900105876002058740020587300205875002061600020615800206159002061610029999900106439002064370020643600206438002067090020670700206708002067100029999900106975002069730020697200206974002072330020723100207232002072340029999900107486002074840020748300207485002077300020772800207729002077310029999900107969002079670020796600207968002081980020819600208197002081990029999900108422002084200020841900208421002086370020863500208636002086380029999900108846002088440020884300208845002090450020904300209044002090460029999900109178002091770060927100609272002999990010936400209363006094530060945400299999001095410020954000609624006096250029999900109706002097050060978300609784002999990010985900209858006099280060992900299999001099940020999300610054006100550029999900110111002101100061015900610160002999990011020100210200006102310061023200299999009

/-- `pad_grid.npz`: `grid[3020, 0], grid[3020, 10], …, grid[3020, 5580]`. -/
def padGrid302 : Nat :=
  999990070511200399999001051110040508000405081004999990010504000399999001050390040499000404991004999990010493500399999001049340040487300404874004999990010480900399999001048080040473800404739004999990010466400399999001046630040458500404586004999990010450500399999001045040040442000404421004999990010433400399999001043330040424300404244004999990010415200399999001041510040405700404058004999990010392600399999001039250040372500403726004999990010351800399999001035170040330100403302004999990010307900399999001030780040284800402849004999990010261100399999001026100040236500402366004999990010211400399999001021130040185400401855004999990010159000399999001015890040131800401319004999990010104100399999001010400040075500400756004999990010046500399999001004640040016700499999001001680039999900105288003999990010528700405584004999990010558500399999001058760040587500406160004999990010616100399999001064390040643800406709004999990010671000399999001069750040697400407233004999990010723400399999001074860040748500407730004999990010773100399999001079690040796800408198004999990010819900399999001084220040842100408637004999990010863800399999001088460040884500409045004999990010904600399999001091780040917700409271004999990010927200399999001093640040936300409453004999990010945400399999001095410040954000409624004999990010962500399999001097060040970500409783004999990010978400399999001098590040985800409928004999990010992900399999001099940040999300410054004999990011005500399999001101110041011000410159004999990011016000399999001102010041020000410231004999990011023200399999009

/-- `pad_grid.npz`: `grid[3030, 0], grid[3030, 10], …, grid[3030, 5580]`. -/
def padGrid303 : Nat :=
  999990070511200505111003050800030508100599999001050400050503900304990003049910059999900104935005049340030487300304874005999990010480900504808003047380030473900599999001046640050466300304585003045860059999900104505005045040030442000304421005999990010433400504333003042430030424400599999001041520050415100304057003040580059999900103926002039270020392800103925003037250030372800103727002037260029999900103518002035190020352000103517003033010030330400103303002033020029999900103079002030800020308100103078003028480030285100102850002028490029999900102611002026120020261300102610003023650030236800102367002023660029999900102114002021150020211600102113003018540030185700101856002018550029999900101590002015910020159200101589003013180030132100101320002013190029999900101041002010420020104300101040003007550030075800100757002007560029999900100465002004660020046700100464003001670030017000100169002001680029999900105288002052890020529000105287003055840030558700105586002055850029999900105876002058770020587800105875003061600030616300106162002061610029999900106439002064400020644100106438003067090030671200106711002067100029999900106975002069760020697700106974003072330030723600107235002072340029999900107486002074870020748800107485003077300030773300107732002077310029999900107969002079700020797100107968003081980030820100108200002081990029999900108422002084230020842400108421003086370030864000108639002086380029999900108846002088470020884800108845003090450030904800109047002090460029999900109178005091770030927100309272005999990010936400509363003094530030945400599999001095410050954000309624003096250059999900109706005097050030978300309784005999990010985900509858003099280030992900599999001099940050999300310054003100550059999900110111005101100031015900310160005999990011020100510200003102310031023200599999009

/-- `pad_grid.npz`: `grid[3040, 0], grid[3040, 10], …, grid[3040, 5580]`. -/
def padGrid304 : Nat :=
  99999007051120070511100105080001050810079999900105040007050390010499000104991007999990010493500704934001048730010487400799999001048090070480800104738001047390079999900104664007046630010458500104586007999990010450500704504001044200010442100799999001043340070433300104243001042440079999900104152007041510010405700104058007999990020392700303928003039250010372500103728003037270039999900303519003035200030351700103301001033040030330300399999003030800030308100303078001028480010285100302850003999990030261200302613003026100010236500102368003023670039999900302115003021160030211300101854001018570030185600399999003015910030159200301589001013180010132100301320003999990030104200301043003010400010075500100758003007570039999900300466003004670030046400100167001001700030016900399999003052890030529000305287001055840010558700305586003999990030587700305878003058750010616000106163003061620039999900306440003064410030643800106709001067120030671100399999003069760030697700306974001072330010723600307235003999990030748700307488003074850010773000107733003077320039999900307970003079710030796800108198001082010030820000399999003084230030842400308421001086370010864000308639003999990030884700308848003088450010904500109048003090470039999900209178007091770010927100109272007999990010936400709363001094530010945400799999001095410070954000109624001096250079999900109706007097050010978300109784007999990010985900709858001099280010992900799999001099940070999300110054001100550079999900110111007101100011015900110160007999990011020100710200001102310011023200799999009

/-- `pad_grid.npz`: `grid[3050, 0], grid[3050, 10], …, grid[3050, 5580]`. -/
def padGrid305 : Nat :=
  99999007051120070511300105082001050810079999900105040007050410010499200104991007999990010493500704936001048750010487400799999001048090070481000104740001047390079999900104664007046650010458700104586007999990010450500704506001044220010442100799999001043340070433500104245001042440079999900104152007041530010405900104058007999990010392700403928003039300010373000103728003037270049999900103519004035200030352200103306001033040030330300499999001030800040308100303083001028530010285100302850004999990010261200402613003026150010237000102368003023670049999900102115004021160030211800101859001018570030185600499999001015910040159200301594001013230010132100301320004999990010104200401043003010450010076000100758003007570049999900100466004004670030046900100172001001700030016900499999001052890040529000305292001055890010558700305586004999990010587700405878003058800010616500106163003061620049999900106440004064410030644300106714001067120030671100499999001069760040697700306979001072380010723600307235004999990010748700407488003074900010773500107733003077320049999900107970004079710030797300108203001082010030820000499999001084230040842400308426001086420010864000308639004999990010884700408848003088500010905000109048003090470049999900109178007091790010927300109272007999990010936400709365001094550010945400799999001095410070954200109626001096250079999900109706007097070010978500109784007999990010985900709860001099300010992900799999001099940070999500110056001100550079999900110111007101120011016100110160007999990011020100710202001102330011023200799999009

/-- `pad_grid.npz`: `grid[3060, 0], grid[3060, 10], …, grid[3060, 5580]`. -/
def padGrid306 : Nat :=
  99999007051120059999900105113002050820029999900105081005999990010504000599999001050410020499200299999001049910059999900104935005999990010493600204875002999990010487400599999001048090059999900104810002047400029999900104739005999990010466400599999001046650020458700299999001045860059999900104505005999990010450600204422002999990010442100599999001043340059999900104335002042450029999900104244005999990010415200599999001041530020405900299999001040580059999900103929002039270020392800199999001039300020373000299999001037280010372700203729002999990010352100203519002035200019999900103522002033060029999900103304001033030020330500299999001030820020308000203081001999990010308300202853002999990010285100102850002028520029999900102614002026120020261300199999001026150020237000299999001023680010236700202369002999990010211700202115002021160019999900102118002018590029999900101857001018560020185800299999001015930020159100201592001999990010159400201323002999990010132100101320002013220029999900101044002010420020104300199999001010450020076000299999001007580010075700200759002999990010046800200466002004670019999900100469002001720029999900100170001001690020017100299999001052910020528900205290001999990010529200205589002999990010558700105586002055880029999900105879002058770020587800199999001058800020616500299999001061630010616200206164002999990010644200206440002064410019999900106443002067140029999900106712001067110020671300299999001069780020697600206977001999990010697900207238002999990010723600107235002072370029999900107489002074870020748800199999001074900020773500299999001077330010773200207734002999990010797200207970002079710019999900107973002082030029999900108201001082000020820200299999001084250020842300208424001999990010842600208642002999990010864000108639002086410029999900108849002088470020884800199999001088500020905000299999001090480010904700209049002999990010917800599999001091790020927300299999001092720059999900109364005999990010936500209455002999990010945400599999001095410059999900109542002096260029999900109625005999990010970600599999001097070020978500299999001097840059999900109859005999990010986000209930002999990010992900599999001099940059999900109995002100560029999900110055005999990011011100599999001101120021016100299999001101600059999900110201005999990011020200210233002999990011023200599999009

/-- `pad_grid.npz`: `grid[3070, 0], grid[3070, 10], …, grid[3070, 5580]`. -/
def padGrid307 : Nat :=
  9999900705112004051130040508200405081004999990010504000405041004049920040499100499999001049350040493600404875004048740049999900104809004048100040474000404739004999990010466400404665004045870040458600499999001045050040450600404422004044210049999900104334004043350040424500404244004999990010415200404153004040590040405800499999001039290040393000403730004037290049999900103521004035220040330600403305004999990010308200403083004028530040285200499999001026140040261500402370004023690049999900102117004021180040185900401858004999990010159300401594004013230040132200499999001010440040104500400760004007590049999900100468004004690040017200400171004999990010529100405292004055890040558800499999001058790040588000406165004061640049999900106442004064430040671400406713004999990010697800406979004072380040723700499999001074890040749000407735004077340049999900107972004079730040820300408202004999990010842500408426004086420040864100499999001088490040885000409050004090490049999900109178004091790040927300409272004999990010936400409365004094550040945400499999001095410040954200409626004096250049999900109706004097070040978500409784004999990010985900409860004099300040992900499999001099940040999500410056004100550049999900110111004101120041016100410160004999990011020100410202004102330041023200499999009

/-- `pad_grid.npz`: `grid[3080, 0], grid[3080, 10], …, grid[3080, 5580]`. -/
def padGrid308 : Nat :=
  9999900705112002051130060508200605081002999990010504000205041006049920060499100299999001049350020493600604875006048740029999900104809002048100060474000604739002999990010466400204665006045870060458600299999001045050020450600604422006044210029999900104334002043350060424500604244002999990010415200204153006040590060405800299999001039290020393200203931001999990010393000203730002999990010373100103732002037290029999900103521002035240020352300199999001035220020330600299999001033070010330800203305002999990010308200203085002030840019999900103083002028530029999900102854001028550020285200299999001026140020261700202616001999990010261500202370002999990010237100102372002023690029999900102117002021200020211900199999001021180020185900299999001018600010186100201858002999990010159300201596002015950019999900101594002013230029999900101324001013250020132200299999001010440020104700201046001999990010104500200760002999990010076100100762002007590029999900100468002004710020047000199999001004690020017200299999001001730010017400200171002999990010529100205294002052930019999900105292002055890029999900105590001055910020558800299999001058790020588200205881001999990010588000206165002999990010616600106167002061640029999900106442002064450020644400199999001064430020671400299999001067150010671600206713002999990010697800206981002069800019999900106979002072380029999900107239001072400020723700299999001074890020749200207491001999990010749000207735002999990010773600107737002077340029999900107972002079750020797400199999001079730020820300299999001082040010820500208202002999990010842500208428002084270019999900108426002086420029999900108643001086440020864100299999001088490020885200208851001999990010885000209050002999990010905100109052002090490029999900109178002091790060927300609272002999990010936400209365006094550060945400299999001095410020954200609626006096250029999900109706002097070060978500609784002999990010985900209860006099300060992900299999001099940020999500610056006100550029999900110111002101120061016100610160002999990011020100210202006102330061023200299999009

/-- `pad_grid.npz`: `grid[3090, 0], grid[3090, 10], …, grid[3090, 5580]`. -/
def padGrid309 : Nat :=
  9999900705113008050820089999900105041008049920089999900104936008048750089999900104810008047400089999900104665008045870089999900104506008044220089999900104335008042450089999900104153008040590089999900103932004039310030393000103730001037310030373200499999001035240040352300303522001033060010330700303308004999990010308500403084003030830010285300102854003028550049999900102617004026160030261500102370001023710030237200499999001021200040211900302118001018590010186000301861004999990010159600401595003015940010132300101324003013250049999900101047004010460030104500100760001007610030076200499999001004710040047000300469001001720010017300300174004999990010529400405293003052920010558900105590003055910049999900105882004058810030588000106165001061660030616700499999001064450040644400306443001067140010671500306716004999990010698100406980003069790010723800107239003072400049999900107492004074910030749000107735001077360030773700499999001079750040797400307973001082030010820400308205004999990010842800408427003084260010864200108643003086440049999900108852004088510030885000109050001090510030905200499999001091790080927300899999001093650080945500899999001095420080962600899999001097070080978500899999001098600080993000899999001099950081005600899999001101120081016100899999001102020081023300899999009

/-- `pad_grid.npz`: `grid[3100, 0], grid[3100, 10], …, grid[3100, 5580]`. -/
def padGrid310 : Nat :=
  9999900805113007050820079999900305041007049920079999900304936007048750079999900304810007047400079999900304665007045870079999900304506007044220079999900304335007042450079999900304153007040590079999900303932003039310030393300103733001037310030373200399999003035240030352300303525001033090010330700303308003999990030308500303084003030860010285600102854003028550039999900302617003026160030261800102373001023710030237200399999003021200030211900302121001018620010186000301861003999990030159600301595003015970010132600101324003013250039999900301047003010460030104800100763001007610030076200399999003004710030047000300472001001750010017300300174003999990030529400305293003052950010559200105590003055910039999900305882003058810030588300106168001061660030616700399999003064450030644400306446001067170010671500306716003999990030698100306980003069820010724100107239003072400039999900307492003074910030749300107738001077360030773700399999003079750030797400307976001082060010820400308205003999990030842800308427003084290010864500108643003086440039999900308852003088510030885300109053001090510030905200399999003091790070927300799999003093650070945500799999003095420070962600799999003097070070978500799999003098600070993000799999003099950071005600799999003101120071016100799999003102020071023300799999010

/-- `pad_grid.npz`: `grid[3110, 0], grid[3110, 10], …, grid[3110, 5580]`. -/
def padGrid311 : Nat :=
  999990070511400205113006050820060508300299999001050420020504100604992006049930029999900104937002049360060487500604876002999990010481100204810006047400060474100299999001046660020466500604587006045880029999900104507002045060060442200604423002999990010433600204335006042450060424600299999001041540020415300604059006040600029999900103934002039320020393100103933003037330030373100103732002037340029999900103526002035240020352300103525003033090030330700103308002033100029999900103087002030850020308400103086003028560030285400102855002028570029999900102619002026170020261600102618003023730030237100102372002023740029999900102122002021200020211900102121003018620030186000101861002018630029999900101598002015960020159500101597003013260030132400101325002013270029999900101049002010470020104600101048003007630030076100100762002007640029999900100473002004710020047000100472003001750030017300100174002001760029999900105296002052940020529300105295003055920030559000105591002055930029999900105884002058820020588100105883003061680030616600106167002061690029999900106447002064450020644400106446003067170030671500106716002067180029999900106983002069810020698000106982003072410030723900107240002072420029999900107494002074920020749100107493003077380030773600107737002077390029999900107977002079750020797400107976003082060030820400108205002082070029999900108430002084280020842700108429003086450030864300108644002086460029999900108854002088520020885100108853003090530030905100109052002090540029999900109180002091790060927300609274002999990010936600209365006094550060945600299999001095430020954200609626006096270029999900109708002097070060978500609786002999990010986100209860006099300060993100299999001099960020999500610056006100570029999900110113002101120061016100610162002999990011020300210202006102330061023400299999009

/-- `pad_grid.npz`: `grid[3120, 0], grid[3120, 10], …, grid[3120, 5580]`. -/
def padGrid312 : Nat :=
  9999900705114004051130040508200405083004999990010504200405041004049920040499300499999001049370040493600404875004048760049999900104811004048100040474000404741004999990010466600404665004045870040458800499999001045070040450600404422004044230049999900104336004043350040424500404246004999990010415400404153004040590040406000499999001039340039999900103933004037330040373400499999001035260039999900103525004033090049999900103310003999990010308700399999001030860040285600499999001028570039999900102619003999990010261800402373004999990010237400399999001021220039999900102121004018620049999900101863003999990010159800399999001015970040132600499999001013270039999900101049003999990010104800400763004999990010076400399999001004730039999900100472004001750049999900100176003999990010529600399999001052950040559200499999001055930039999900105884003999990010588300406168004999990010616900399999001064470039999900106446004067170049999900106718003999990010698300399999001069820040724100499999001072420039999900107494003999990010749300407738004999990010773900399999001079770039999900107976004082060049999900108207003999990010843000399999001084290040864500499999001086460039999900108854004088530040905300499999001090540039999900109180004091790040927300409274004999990010936600409365004094550040945600499999001095430040954200409626004096270049999900109708004097070040978500409786004999990010986100409860004099300040993100499999001099960040999500410056004100570049999900110113004101120041016100410162004999990011020300410202004102330041023400499999009

/-- `pad_grid.npz`: `grid[3130, 0], grid[3130, 10], …, grid[3130, 5580]`. -/
def padGrid313 : Nat :=
  999990070511400605113002050820020508300699999001050420060504100204992002049930069999900104937006049360020487500204876006999990010481100604810002047400020474100699999001046660060466500204587002045880069999900104507006045060020442200204423006999990010433600604335002042450020424600699999001041540060415300204059002040600069999900103934002039350020393600203933002037330020373600203735002037340029999900103526002035270020352800203525002033090020331200203311002033100029999900103087002030880020308900203086002028560020285900202858002028570029999900102619002026200020262100202618002023730020237600202375002023740029999900102122002021230020212400202121002018620020186500201864002018630029999900101598002015990020160000201597002013260020132900201328002013270029999900101049002010500020105100201048002007630020076600200765002007640029999900100473002004740020047500200472002001750020017800200177002001760029999900105296002052970020529800205295002055920020559500205594002055930029999900105884002058850020588600205883002061680020617100206170002061690029999900106447002064480020644900206446002067170020672000206719002067180029999900106983002069840020698500206982002072410020724400207243002072420029999900107494002074950020749600207493002077380020774100207740002077390029999900107977002079780020797900207976002082060020820900208208002082070029999900108430002084310020843200208429002086450020864800208647002086460029999900108854002088550020885600208853002090530020905600209055002090540029999900109180006091790020927300209274006999990010936600609365002094550020945600699999001095430060954200209626002096270069999900109708006097070020978500209786006999990010986100609860002099300020993100699999001099960060999500210056002100570069999900110113006101120021016100210162006999990011020300610202002102330021023400699999009

/-- `pad_grid.npz`: `grid[3140, 0], grid[3140, 10], …, grid[3140, 5580]`. -/
def padGrid314 : Nat :=
  99999007051140070511300199999001050830079999900105042007050410019999900104993007999990010493700704936001999990010487600799999001048110070481000199999001047410079999900104666007046650019999900104588007999990010450700704506001999990010442300799999001043360070433500199999001042460079999900104154007041530019999900104060007999990010393500403936003039330019999900103736003037350049999900103527004035280030352500103309001033120030331100499999001030880040308900303086001028560010285900302858004999990010262000402621003026180010237300102376003023750049999900102123004021240030212100101862001018650030186400499999001015990040160000301597001013260010132900301328004999990010105000401051003010480010076300100766003007650049999900100474004004750030047200100175001001780030017700499999001052970040529800305295001055920010559500305594004999990010588500405886003058830010616800106171003061700049999900106448004064490030644600106717001067200030671900499999001069840040698500306982001072410010724400307243004999990010749500407496003074930010773800107741003077400049999900107978004079790030797600108206001082090030820800499999001084310040843200308429001086450010864800308647004999990010885500408856003999990010905300109056003090550049999900109180007999990010927300109274007999990010936600799999001094550010945600799999001095430079999900109626001096270079999900109708007999990010978500109786007999990010986100799999001099300010993100799999001099960079999900110056001100570079999900110113007999990011016100110162007999990011020300799999001102330011023400799999009

/-- `pad_grid.npz`: `grid[3150, 0], grid[3150, 10], …, grid[3150, 5580]`. -/
def padGrid315 : Nat :=
  99999007051140070511500105084001050830079999900105042007050430010499400104993007999990010493700704938001048770010487600799999001048110070481200104742001047410079999900104666007046670010458900104588007999990010450700704508001044240010442300799999001043360070433700104247001042460079999900104154007041550010406100104060007999990020393500303936003039380010373800103736003037350030373700199999002035270030352800303530001033140010331200303311003033130019999900203088003030890030309100102861001028590030285800302860001999990020262000302621003026230010237800102376003023750030237700199999001021250010212300302124003021260010186700101865003018640030186600199999001016010010159900301600003016020010133100101329003013280030133000199999001010520010105000301051003010530010076800100766003007650030076700199999001004760010047400300475003004770010018000100178003001770030017900199999001052990010529700305298003053000010559700105595003055940030559600199999001058870010588500305886003058880010617300106171003061700030617200199999001064500010644800306449003064510010672200106720003067190030672100199999001069860010698400306985003069870010724600107244003072430030724500199999001074970010749500307496003074980010774300107741003077400039999900207980001079780030797900307981001082110010820900308208003999990020843300108431003084320030843400108650001086480030864700399999002088570010885500308856003088580010905800109056003090550039999900209180007091810010927500109274007999990010936600709367001094570010945600799999001095430070954400109628001096270079999900109708007097090010978700109786007999990010986100709862001099320010993100799999001099960070999700110058001100570079999900110113007101140011016300110162007999990011020300710204001102350011023400799999009

/-- `pad_grid.npz`: `grid[3160, 0], grid[3160, 10], …, grid[3160, 5580]`. -/
def padGrid316 : Nat :=
  999990070511400505115003050840030508300599999001050420050504300304994003049930059999900104937005049380030487700304876005999990010481100504812003047420030474100599999001046660050466700304589003045880059999900104507005045080030442400304423005999990010433600504337003042470030424600599999001041540050415500304061003040600059999900103937002039350020393600103938003037380030373600103735002037370029999900103529002035270020352800103530003033140030331200103311002033130029999900103090002030880020308900103091003028610030285900102858002028600029999900102622002026200020262100102623003023780030237600102375002023770029999900102125002021230020212400102126003018670030186500101864002018660029999900101601002015990020160000101602003013310030132900101328002013300029999900101052002010500020105100101053003007680030076600100765002007670029999900100476002004740020047500100477003001800030017800100177002001790029999900105299002052970020529800105300003055970030559500105594002055960029999900105887002058850020588600105888003061730030617100106170002061720029999900106450002064480020644900106451003067220030672000106719002067210029999900106986002069840020698500106987003072460030724400107243002072450029999900107497002074950020749600107498003077430030774100107740002077420029999900107980002079780020797900107981003082110030820900108208002082100029999900108433002084310020843200108434003086500030864800108647002086490029999900108857002088550020885600108858003090580030905600109055002090570029999900109180005091810030927500309274005999990010936600509367003094570030945600599999001095430050954400309628003096270059999900109708005097090030978700309786005999990010986100509862003099320030993100599999001099960050999700310058003100570059999900110113005101140031016300310162005999990011020300510204003102350031023400599999009

/-- `pad_grid.npz`: `grid[3170, 0], grid[3170, 10], …, grid[3170, 5580]`. -/
def padGrid317 : Nat :=
  99999007051140030511500505084004999990010508300399999001050420030504300504994004999990010499300399999001049370030493800504877004999990010487600399999001048110030481200504742004999990010474100399999001046660030466700504589004999990010458800399999001045070030450800504424004999990010442300399999001043360030433700504247004999990010424600399999001041540039999900104155004040610049999900104060003999990010393700399999001039380040373800499999001037370039999900103529003999990010353000403314004999990010331300399999001030900039999900103091004028610049999900102860003999990010262200399999001026230040237800499999001023770039999900102125003999990010212600401867004999990010186600399999001016010039999900101602004013310049999900101330003999990010105200399999001010530040076800499999001007670039999900100476003999990010047700400180004999990010017900399999001052990039999900105300004055970049999900105596003999990010588700399999001058880040617300499999001061720039999900106450003999990010645100406722004999990010672100399999001069860039999900106987004072460049999900107245003999990010749700399999001074980040774300499999001077420039999900107980003999990010798100408211004999990010821000399999001084330039999900108434004086500049999900108649003999990010885700399999001088580040905800499999001090570039999900109180003999990010918100409275004999990010927400399999001093660039999900109367004094570050945600399999001095430039999900109544004096280050962700399999001097080039999900109709004097870050978600399999001098610039999900109862004099320050993100399999001099960039999900109997004100580051005700399999001101130039999900110114004101630051016200399999001102030039999900110204004102350051023400399999009

/-- `pad_grid.npz`: `grid[3180, 0], grid[3180, 10], …, grid[3180, 5580]`. -/
def padGrid318 : Nat :=
  999990070511400205115006050840060508300299999001050420020504300604994006049930029999900104937002049380060487700604876002999990010481100204812006047420060474100299999001046660020466700604589006045880029999900104507002045080060442400604423002999990010433600204337006042470060424600299999001041540020415500604061006040600029999900103937002039400020393900203938002037380020373900203740002037370029999900103529002035320020353100203530002033140020331500203316002033130029999900103090002030930020309200203091002028610020286200202863002028600029999900102622002026250020262400202623002023780020237900202380002023770029999900102125002021280020212700202126002018670020186800201869002018660029999900101601002016040020160300201602002013310020133200201333002013300029999900101052002010550020105400201053002007680020076900200770002007670029999900100476002004790020047800200477002001800020018100200182002001790029999900105299002053020020530100205300002055970020559800205599002055960029999900105887002058900020588900205888002061730020617400206175002061720029999900106450002064530020645200206451002067220020672300206724002067210029999900106986002069890020698800206987002072460020724700207248002072450029999900107497002075000020749900207498002077430020774400207745002077420029999900107980002079830020798200207981002082110020821200208213002082100029999900108433002084360020843500208434002086500020865100208652002086490029999900108857002088600020885900208858002090580020905900209060002090570029999900109180002091810060927500609274002999990010936600209367006094570060945600299999001095430020954400609628006096270029999900109708002097090060978700609786002999990010986100209862006099320060993100299999001099960020999700610058006100570029999900110113002101140061016300610162002999990011020300210204006102350061023400299999009

/-- `pad_grid.npz`: `grid[3190, 0], grid[3190, 10], …, grid[3190, 5580]`. -/
def padGrid319 : Nat :=
  99999007051150080508400899999001050430080499400899999001049380080487700899999001048120080474200899999001046670080458900899999001045080080442400899999001043370080424700899999001041550080406100899999001039400040393900399999002037390030374000499999001035320040353100399999002033150030331600499999001030930040309200399999002028620030286300499999001026250040262400399999002023790030238000499999001021280040212700399999002018680030186900499999001016040040160300399999002013320030133300499999001010550040105400399999002007690030077000499999001004790040047800399999002001810030018200499999001053020040530100399999002055980030559900499999001058900040588900399999002061740030617500499999001064530040645200399999002067230030672400499999001069890040698800399999002072470030724800499999001075000040749900399999002077440030774500499999001079830040798200399999002082120030821300499999001084360040843500399999002086510030865200499999001088600040885900399999002090590030906000499999001091810080927500899999001093670080945700899999001095440080962800899999001097090080978700899999001098620080993200899999001099970081005800899999001101140081016300899999001102040081023500899999009

/-- `pad_grid.npz`: `grid[3200, 0], grid[3200, 10], …, grid[3200, 5580]`. -/
def padGrid320 : Nat :=
  999990070511600105115007050840070508500199999001050440010504300704994007049950019999900104939001049380070487700704878001999990010481300104812007047420070474300199999001046680010466700704589007045900019999900104509001045080070442400704425001999990010433800104337007042470070424800199999001041560010415500704061007040620019999900103942001039400030393900303941001037410010373900303740003037420019999900103534001035320030353100303533001033170010331500303316003033180019999900103095001030930030309200303094001028640010286200302863003028650019999900102627001026250030262400302626001023810010237900302380003023820019999900102130001021280030212700302129001018700010186800301869003018710019999900101606001016040030160300301605001013340010133200301333003013350019999900101057001010550030105400301056001007710010076900300770003007720019999900100481001004790030047800300480001001830010018100300182003001840019999900105304001053020030530100305303001056000010559800305599003056010019999900105892001058900030588900305891001061760010617400306175003061770019999900106455001064530030645200306454001067250010672300306724003067260019999900106991001069890030698800306990001072490010724700307248003072500019999900107502001075000030749900307501001077460010774400307745003077470019999900107985001079830030798200307984001082140010821200308213003082150019999900108438001084360030843500308437001086530010865100308652003086540019999900108862001088600030885900308861001090610010905900309060003090620019999900109182001091810070927500709276001999990010936800109367007094570070945800199999001095450010954400709628007096290019999900109710001097090070978700709788001999990010986300109862007099320070993300199999001099980010999700710058007100590019999900110115001101140071016300710164001999990011020500110204007102350071023600199999009

/-- `pad_grid.npz`: `grid[3210, 0], grid[3210, 10], …, grid[3210, 5580]`. -/
def padGrid321 : Nat :=
  99999007051160029999900105115005050840059999900105085002999990010504400299999001050430050499400599999001049950029999900104939002999990010493800504877005999990010487800299999001048130029999900104812005047420059999900104743002999990010466800299999001046670050458900599999001045900029999900104509002999990010450800504424005999990010442500299999001043380029999900104337005042470059999900104248002999990010415600299999001041550050406100599999001040620029999900103942002999990010394000103939001039410030374100303739001037400019999900103742002999990010353400299999001035320010353100103533003033170030331500103316001999990010331800299999001030950029999900103093001030920010309400302864003028620010286300199999001028650029999900102627002999990010262500102624001026260030238100302379001023800019999900102382002999990010213000299999001021280010212700102129003018700030186800101869001999990010187100299999001016060029999900101604001016030010160500301334003013320010133300199999001013350029999900101057002999990010105500101054001010560030077100300769001007700019999900100772002999990010048100299999001004790010047800100480003001830030018100100182001999990010018400299999001053040029999900105302001053010010530300305600003055980010559900199999001056010029999900105892002999990010589000105889001058910030617600306174001061750019999900106177002999990010645500299999001064530010645200106454003067250030672300106724001999990010672600299999001069910029999900106989001069880010699000307249003072470010724800199999001072500029999900107502002999990010750000107499001075010030774600307744001077450019999900107747002999990010798500299999001079830010798200107984003082140030821200108213001999990010821500299999001084380029999900108436001084350010843700308653003086510010865200199999001086540029999900108862002999990010886000108859001088610030906100309059001090600019999900109062002999990010918200299999001091810050927500599999001092760029999900109368002999990010936700509457005999990010945800299999001095450029999900109544005096280059999900109629002999990010971000299999001097090050978700599999001097880029999900109863002999990010986200509932005999990010993300299999001099980029999900109997005100580059999900110059002999990011011500299999001101140051016300599999001101640029999900110205002999990011020400510235005999990011023600299999009

/-- `pad_grid.npz`: `grid[3220, 0], grid[3220, 10], …, grid[3220, 5580]`. -/
def padGrid322 : Nat :=
  99999007051160040511500405084004050850049999900105044004050430040499400404995004999990010493900404938004048770040487800499999001048130040481200404742004047430049999900104668004046670040458900404590004999990010450900404508004044240040442500499999001043380040433700404247004042480049999900104156004041550040406100404062004999990010394200303943001039410040374100403743001037420039999900103534003035350010353300403317004033190010331800399999001030950030309600103094004028640040286600102865003999990010262700302628001026260040238100402383001023820039999900102130003021310010212900401870004018720010187100399999001016060030160700101605004013340040133600101335003999990010105700301058001010560040077100400773001007720039999900100481003004820010048000400183004001850010018400399999001053040030530500105303004056000040560200105601003999990010589200305893001058910040617600406178001061770039999900106455003064560010645400406725004067270010672600399999001069910030699200106990004072490040725100107250003999990010750200307503001075010040774600407748001077470039999900107985003079860010798400408214004082160010821500399999001084380030843900108437004086530040865500108654003999990010886200308863001088610040906100409063001090620039999900109182004091810040927500409276004999990010936800409367004094570040945800499999001095450040954400409628004096290049999900109710004097090040978700409788004999990010986300409862004099320040993300499999001099980040999700410058004100590049999900110115004101140041016300410164004999990011020500410204004102350041023600499999009

/-- `pad_grid.npz`: `grid[3230, 0], grid[3230, 10], …, grid[3230, 5580]`. -/
def padGrid323 : Nat :=
  9999900705116006051150020508400205085006999990010504400605043002049940020499500699999001049390060493800204877002048780069999900104813006048120020474200204743006999990010466800604667002045890020459000699999001045090060450800204424002044250069999900104338006043370020424700204248006999990010415600604155002040610020406200699999001039420019999900103943002039440020394100203741002037440020374300299999001037420019999900103534001999990010353500203536002035330020331700203320002033190029999900103318001999990010309500199999001030960020309700203094002028640020286700202866002999990010286500199999001026270019999900102628002026290020262600202381002023840020238300299999001023820019999900102130001999990010213100202132002021290020187000201873002018720029999900101871001999990010160600199999001016070020160800201605002013340020133700201336002999990010133500199999001010570019999900101058002010590020105600200771002007740020077300299999001007720019999900100481001999990010048200200483002004800020018300200186002001850029999900100184001999990010530400199999001053050020530600205303002056000020560300205602002999990010560100199999001058920019999900105893002058940020589100206176002061790020617800299999001061770019999900106455001999990010645600206457002064540020672500206728002067270029999900106726001999990010699100199999001069920020699300206990002072490020725200207251002999990010725000199999001075020019999900107503002075040020750100207746002077490020774800299999001077470019999900107985001999990010798600207987002079840020821400208217002082160029999900108215001999990010843800199999001084390020844000208437002086530020865600208655002999990010865400199999001088620019999900108863002088640020886100209061002090640020906300299999001090620019999900109182006091810020927500209276006999990010936800609367002094570020945800699999001095450060954400209628002096290069999900109710006097090020978700209788006999990010986300609862002099320020993300699999001099980060999700210058002100590069999900110115006101140021016300210164006999990011020500610204002102350021023600699999009

/-- `pad_grid.npz`: `grid[3240, 0], grid[3240, 10], …, grid[3240, 5580]`. -/
def padGrid324 : Nat :=
  999990070511600805085008999990010504400804995008999990010493900804878008999990010481300804743008999990010466800804590008999990010450900804425008999990010433800804248008999990010415600804062008999990010394300403944004037440040374300499999001035350040353600403320004033190049999900103096004030970040286700402866004999990010262800402629004023840040238300499999001021310040213200401873004018720049999900101607004016080040133700401336004999990010105800401059004007740040077300499999001004820040048300400186004001850049999900105305004053060040560300405602004999990010589300405894004061790040617800499999001064560040645700406728004067270049999900106992004069930040725200407251004999990010750300407504004077490040774800499999001079860040798700408217004082160049999900108439004084400040865600408655004999990010886300408864004090640040906300499999001091820080927600899999001093680080945800899999001095450080962900899999001097100080978800899999001098630080993300899999001099980081005900899999001101150081016400899999001102050081023600899999009

/-- `pad_grid.npz`: `grid[3250, 0], grid[3250, 10], …, grid[3250, 5580]`. -/
def padGrid325 : Nat :=
  9999900705116006999990010511700105086001050850079999900105044006999990010504500104996001049950079999900104939006999990010494000104879001048780079999900104813006999990010481400104744001047430079999900104668006999990010466900104591001999990010459000699999001045090069999900104510001044260019999900104425006999990010433800699999001043390010424900199999001042480069999900104156006999990010415700104063001999990010406200699999001039450010394300303944002999990010394600103746001999990010374400203743003037450019999900103537001035350030353600299999001035380010332200199999001033200020331900303321001999990010309800103096003030970029999900103099001028690019999900102867002028660030286800199999001026300010262800302629002999990010263100102386001999990010238400202383003023850019999900102133001021310030213200299999001021340010187500199999001018730020187200301874001999990010160900101607003016080029999900101610001013390019999900101337002013360030133800199999001010600010105800301059002999990010106100100776001999990010077400200773003007750019999900100484001004820030048300299999001004850010018800199999001001860020018500300187001999990010530700105305003053060029999900105308001056050019999900105603002056020030560400199999001058950010589300305894002999990010589600106181001999990010617900206178003061800019999900106458001064560030645700299999001064590010673000199999001067280020672700306729001999990010699400106992003069930029999900106995001072540019999900107252002072510030725300199999001075050010750300307504002999990010750600107751001999990010774900207748003077500019999900107988001079860030798700299999001079890010821900199999001082170020821600308218001999990010844100108439003084400029999900108442001086580019999900108656002086550030865700199999001088650010886300308864002999990010886600109066001999990010906400209063003090650019999900109182006999990010918300109277001999990010927600699999001093680069999900109369001094590019999900109458006999990010954500699999001095460010963000199999001096290069999900109710006999990010971100109789001999990010978800699999001098630070986400109934001999990010993300699999001099980070999900110060001999990011005900699999001101150071011600110165001999990011016400699999001102050071020600110237001999990011023600699999009

/-- `pad_grid.npz`: `grid[3260, 0], grid[3260, 10], …, grid[3260, 5580]`. -/
def padGrid326 : Nat :=
  999990070511600505117003050860030508500599999001050440050504500304996003049950059999900104939005049400030487900304878005999990010481300504814003047440030474300599999001046680050466900304591003045900059999900104509005045100030442600304425005999990010433800504339003042490030424800599999001041560050415700304063003040620059999900103945003039430010394400103946003037460030374400103743001037450039999900103537003035350010353600103538003033220030332000103319001033210039999900103098003030960010309700103099003028690030286700102866001028680039999900102630003026280010262900102631003023860030238400102383001023850039999900102133003021310010213200102134003018750030187300101872001018740039999900101609003016070010160800101610003013390030133700101336001013380039999900101060003010580010105900101061003007760030077400100773001007750039999900100484003004820010048300100485003001880030018600100185001001870039999900105307003053050010530600105308003056050030560300105602001056040039999900105895003058930010589400105896003061810030617900106178001061800039999900106458003064560010645700106459003067300030672800106727001067290039999900106994003069920010699300106995003072540030725200107251001072530039999900107505003075030010750400107506003077510030774900107748001077500039999900107988003079860010798700107989003082190030821700108216001082180039999900108441003084390010844000108442003086580030865600108655001086570039999900108865003088630010886400108866003090660030906400109063001090650039999900109182005091830030927700309276005999990010936800509369003094590030945800599999001095450050954600309630003096290059999900109710005097110030978900309788005999990010986300509864003099340030993300599999001099980050999900310060003100590059999900110115005101160031016500310164005999990011020500510206003102370031023600599999009

/-- `pad_grid.npz`: `grid[3270, 0], grid[3270, 10], …, grid[3270, 5580]`. -/
def padGrid327 : Nat :=
  99999007051160030511700505086005050850039999900105044003050450050499600504995003999990010493900304940005048790050487800399999001048130030481400504744005047430039999900104668003046690050459100504590003999990010450900304510005044260050442500399999001043380030433900504249005042480039999900104156003041570050406300504062003999990010394500303948001039460040374600399999001037480010374500399999001035370030354000103538004033220039999900103324001033210039999900103098003031010010309900402869003999990010287100102868003999990010263000302633001026310040238600399999001023880010238500399999001021330030213600102134004018750039999900101877001018740039999900101609003016120010161000401339003999990010134100101338003999990010106000301063001010610040077600400778001007750039999900100484003004870010048500400188004001900010018700399999001053070030531000105308004056050040560700105604003999990010589500305898001058960040618100406183001061800039999900106458003064610019999900106459003067300040673200106729003999990010699400306997001999990010699500307254004072560010725300399999001075050030750800199999001075060030775100407753001077500039999900107988003079910019999900107989003082190040822100108218003999990010844100308444001999990010844200308658004086600010865700399999001088650030886800199999001088660030906600409068001090650039999900109182003091830050927700509276003999990010936800309369005094590050945800399999001095450030954600509630005096290039999900109710003097110050978900509788003999990010986300309864005099340050993300399999001099980030999900510060005100590039999900110115003101160051016500510164003999990011020500310206005102370051023600399999009

/-- `pad_grid.npz`: `grid[3280, 0], grid[3280, 10], …, grid[3280, 5580]`. -/
def padGrid328 : Nat :=
  999990070511600105117007050860069999900105085001999990010504400105045007049960069999900104995001999990010493900104940007048790069999900104878001999990010481300104814007047440069999900104743001999990010466800104669007045910069999900104590001999990010450900104510007044260069999900104425001999990010433800104339007042490070424800199999001041560010415700704063007040620019999900103945001039480030394700203946002037460020374700203748003037450019999900103537001035400030353900203538002033220020332300203324003033210019999900103098001031010030310000203099002028690020287000202871003028680019999900102630001026330030263200202631002023860020238700202388003023850019999900102133001021360030213500202134002018750020187600201877003018740019999900101609001016120030161100201610002013390020134000201341003013380019999900101060001010630030106200201061002007760020077700200778003007750019999900100484001004870030048600200485002001880020018900200190003001870019999900105307001053100030530900205308002056050020560600205607003056040019999900105895001058980030589700205896002061810020618200206183003061800019999900106458001064610030646000206459002067300020673100206732003067290019999900106994001069970030699600206995002072540020725500207256003072530019999900107505001075080030750700207506002077510020775200207753003077500019999900107988001079910030799000207989002082190020822000208221003082180019999900108441001084440030844300208442002086580020865900208660003086570019999900108865001088680030886700208866002090660020906700209068003090650019999900109182001091830070927700709276001999990010936800109369007094590070945800199999001095450019999900109546006096300070962900199999001097100019999900109711006097890070978800199999001098630019999900109864006099340070993300199999001099980019999900109999006100600071005900199999001101150019999900110116006101650071016400199999001102050019999900110206006102370071023600199999009

/-- `pad_grid.npz`: `grid[3290, 0], grid[3290, 10], …, grid[3290, 5580]`. -/
def padGrid329 : Nat :=
  999990070511700805086008999990010504500804996008999990010494000804879008999990010481400804744008999990010466900804591008999990010451000804426008999990010433900804249008999990010415700804063008999990010394800403947004037470040374800499999001035400040353900403323004033240049999900103101004031000040287000402871004999990010263300402632004023870040238800499999001021360040213500401876004018770049999900101612004016110040134000401341004999990010106300401062004007770040077800499999001004870040048600400189004001900049999900105310004053090040560600405607004999990010589800405897004061820040618300499999001064610040646000406731004067320049999900106997004069960040725500407256004999990010750800407507004077520040775300499999001079910040799000408220004082210049999900108444004084430040865900408660004999990010886800408867004090670040906800499999001091830080927700899999001093690080945900899999001095460080963000899999001097110080978900899999001098640080993400899999001099990081006000899999001101160081016500899999001102060081023700899999009

/-- `pad_grid.npz`: `grid[3300, 0], grid[3300, 10], …, grid[3300, 5580]`. -/
def padGrid330 : Nat :=
  9999900705118001051170070508600705087001999990010504600105045007049960070499700199999001049410010494000704879007048800019999900104815001048140070474400704745001999990010467000104669007045910070459200199999001045110010451000704426007044270019999900104340001043390070424900704250001999990010415800104157007040630070406400199999001039500010394800303947002039490020374900199999001037470020374800303750001999990010354200103540003035390020354100203325001999990010332300203324003033260019999900103103001031010030310000203102002028720019999900102870002028710030287300199999001026350010263300302632002999990010263400102389001999990010238700202388003023900019999900102138001021360030213500299999001021370010187800199999001018760020187700301879001999990010161400101612003016110029999900101613001013420019999900101340002013410030134300199999001010650010106300301062002999990010106400100779001999990010077700200778003007800019999900100489001004870030048600299999001004880010019100199999001001890020019000300192001999990010531200105310003053090029999900105311001056080019999900105606002056070030560900199999001059000010589800305897002999990010589900106184001999990010618200206183003061850019999900106463001064610030646000299999001064620010673300199999001067310020673200306734001999990010699900106997003069960029999900106998001072570019999900107255002072560030725800199999001075100010750800307507002999990010750900107754001999990010775200207753003077550019999900107993001079910030799000299999001079920010822200208220002082210030822300199999001084460010844400308443002999990010844500108661002086590020866000308662001999990010887000108868003088670029999900108869001090690020906700209068003090700019999900109184001091830070927700709278001999990010937000109369007094590070946000199999001095470010954600709630007096310019999900109712001097110070978900709790001999990010986500109864007099340070993500199999001100000010999900710060007100610019999900110117001101160071016500710166001999990011020700110206007102370071023800199999009

/-- `pad_grid.npz`: `grid[3310, 0], grid[3310, 10], …, grid[3310, 5580]`. -/
def padGrid331 : Nat :=
  999990070511800305117005050860050508700399999001050460030504500504996005049970039999900104941003049400050487900504880003999990010481500304814005047440050474500399999001046700030466900504591005045920039999900104511003045100050442600504427003999990010434000304339005042490050425000399999001041580030415700504063005040640039999900103950003039480010394700103949003037490030374700103748001037500039999900103542003035400010353900103541003033250030332300103324001033260039999900103103003031010010310000103102003028720030287000102871001028730039999900102635003026330010263200102634003023890030238700102388001023900039999900102138003021360010213500102137003018780030187600101877001018790039999900101614003016120010161100101613003013420030134000101341001013430039999900101065003010630010106200101064003007790030077700100778001007800039999900100489003004870010048600100488003001910030018900100190001001920039999900105312003053100010530900105311003056080030560600105607001056090039999900105900003058980010589700105899003061840030618200106183001061850039999900106463003064610010646000106462003067330030673100106732001067340039999900106999003069970010699600106998003072570030725500107256001072580039999900107510003075080010750700107509003077540030775200107753001077550039999900107993003079910010799000107992003082220030822000108221001082230039999900108446003084440010844300108445003086610030865900108660001086620039999900108870003088680010886700108869003090690030906700109068001090700039999900109184003091830050927700509278003999990010937000309369005094590050946000399999001095470030954600509630005096310039999900109712003097110050978900509790003999990010986500309864005099340050993500399999001100000030999900510060005100610039999900110117003101160051016500510166003999990011020700310206005102370051023800399999009

/-- `pad_grid.npz`: `grid[3320, 0], grid[3320, 10], …, grid[3320, 5580]`. -/
def padGrid332 : Nat :=
  9999900705118004999990010511700305086003999990010508700499999001050460049999900105045003049960039999900104997004999990010494100499999001049400030487900399999001048800049999900104815004999990010481400304744003999990010474500499999001046700049999900104669003045910039999900104592004999990010451100499999001045100030442600399999001044270049999900104340004999990010433900304249003999990010425000499999001041580049999900104157003040630039999900104064004999990010395000303951001999990010394900303749003999990010375100103750003999990010354200303543001999990010354100303325003999990010332700103326003999990010310300303104001999990010310200302872003999990010287400102873003999990010263500302636001999990010263400302389003999990010239100102390003999990010213800302139001999990010213700301878003999990010188000101879003999990010161400301615001999990010161300301342003999990010134400101343003999990010106500301066001999990010106400300779003999990010078100100780003999990010048900300490001999990010048800300191003999990010019300100192003999990010531200305313001999990010531100305608003999990010561000105609003999990010590000305901001999990010589900306184003999990010618600106185003999990010646300306464001999990010646200306733003999990010673500106734003999990010699900307000001999990010699800307257003999990010725900107258003999990010751000307511001999990010750900307754003999990010775600107755003999990010799300307994001999990010799200308222003999990010822400108223003999990010844600308447001999990010844500308661003999990010866300108662003999990010887000308871001999990010886900309069003999990010907100109070003999990010918400499999001091830030927700399999001092780049999900109370004999990010936900309459003999990010946000499999001095470049999900109546003096300039999900109631004999990010971200499999001097110030978900399999001097900049999900109865004999990010986400309934003999990010993500499999001100000049999900109999003100600039999900110061004999990011011700499999001101160031016500399999001101660049999900110207004999990011020600310237003999990011023800499999009

/-- `pad_grid.npz`: `grid[3330, 0], grid[3330, 10], …, grid[3330, 5580]`. -/
def padGrid333 : Nat :=
  999990070511800605117002050860020508700699999001050460060504500204996002049970069999900104941006049400020487900204880006999990010481500604814002047440020474500699999001046700060466900204591002045920069999900104511006045100020442600204427006999990010434000604339002042490020425000699999001041580060415700204063002040640069999900103950001039510030395200203949002037490020375200203751003037500019999900103542001035430030354400203541002033250020332800203327003033260019999900103103001031040030310500203102002028720020287500202874003028730019999900102635001026360030263700202634002023890020239200202391003023900019999900102138001021390030214000202137002018780020188100201880003018790019999900101614001016150030161600201613002013420020134500201344003013430019999900101065001010660030106700201064002007790020078200200781003007800019999900100489001004900030049100200488002001910020019400200193003001920019999900105312001053130030531400205311002056080020561100205610003056090019999900105900001059010030590200205899002061840020618700206186003061850019999900106463001064640030646500206462002067330020673600206735003067340019999900106999001070000030700100206998002072570020726000207259003072580019999900107510001075110030751200207509002077540020775700207756003077550019999900107993001079940030799500207992002082220020822500208224003082230019999900108446001084470030844800208445002086610020866400208663003086620019999900108870001088710030887200208869002090690020907200209071003090700019999900109184006091830020927700209278006999990010937000609369002094590020946000699999001095470060954600209630002096310069999900109712006097110020978900209790006999990010986500609864002099340020993500699999001100000060999900210060002100610069999900110117006101160021016500210166006999990011020700610206002102370021023800699999009

/-- `pad_grid.npz`: `grid[3340, 0], grid[3340, 10], …, grid[3340, 5580]`. -/
def padGrid334 : Nat :=
  999990070511800805087008999990010504600804997008999990010494100804880008999990010481500804745008999990010467000804592008999990010451100804427008999990010434000804250008999990010415800804064008999990010395100403952004037520040375100499999001035430040354400403328004033270049999900103104004031050040287500402874004999990010263600402637004023920040239100499999001021390040214000401881004018800049999900101615004016160040134500401344004999990010106600401067004007820040078100499999001004900040049100400194004001930049999900105313004053140040561100405610004999990010590100405902004061870040618600499999001064640040646500406736004067350049999900107000004070010040726000407259004999990010751100407512004077570040775600499999001079940040799500408225004082240049999900108447004084480040866400408663004999990010887100408872004090720040907100499999001091840080927800899999001093700080946000899999001095470080963100899999001097120080979000899999001098650080993500899999001100000081006100899999001101170081016600899999001102070081023800899999009

/-- `pad_grid.npz`: `grid[3350, 0], grid[3350, 10], …, grid[3350, 5580]`. -/
def padGrid335 : Nat :=
  999990070511800605119002050880020508700699999001050460060504700204998002049970069999900104941006049420020488100204880006999990010481500604816002047460020474500699999001046700060467100204593002045920069999900104511006045120020442800204427006999990010434000604341002042510020425000699999001041580060415900204065002040640069999900103953001039510030395200203954002037540020375200203751003037530019999900103545001035430030354400203546002033300020332800203327003033290019999900103106001031040030310500203107002028770020287500202874003028760019999900102638001026360030263700202639002023940020239200202391003023930019999900102141001021390030214000202142002018830020188100201880003018820019999900101617001016150030161600201618002013470020134500201344003013460019999900101068001010660030106700201069002007840020078200200781003007830019999900100492001004900030049100200493002001960020019400200193003001950019999900105315001053130030531400205316002056130020561100205610003056120019999900105903001059010030590200205904002061890020618700206186003061880019999900106466001064640030646500206467002067380020673600206735003067370019999900107002001070000030700100207003002072620020726000207259003072610019999900107513001075110030751200207514002077590020775700207756003077580019999900107996001079940030799500207997002082270020822500208224003082260019999900108449001084470030844800208450002086660020866400208663003086650019999900108873001088710030887200208874002090740020907200209071003090730019999900109184006091850020927900209278006999990010937000609371002094610020946000699999001095470060954800209632002096310069999900109712006097130020979100209790006999990010986500609866002099360020993500699999001100000061000100210062002100610069999900110117006101180021016700210166006999990011020700610208002102390021023800699999009

/-- `pad_grid.npz`: `grid[3360, 0], grid[3360, 10], …, grid[3360, 5580]`. -/
def padGrid336 : Nat :=
  9999900705118004999990010511900305088003999990010508700499999001050460049999900105047003049980039999900104997004999990010494100499999001049420030488100399999001048800049999900104815004999990010481600304746003999990010474500499999001046700049999900104671003045930039999900104592004999990010451100499999001045120030442800399999001044270049999900104340004999990010434100304251003999990010425000499999001041580049999900104159003040650039999900104064004999990010395300303951001999990010395400303754003999990010375100103753003999990010354500303543001999990010354600303330003999990010332700103329003999990010310600303104001999990010310700302877003999990010287400102876003999990010263800302636001999990010263900302394003999990010239100102393003999990010214100302139001999990010214200301883003999990010188000101882003999990010161700301615001999990010161800301347003999990010134400101346003999990010106800301066001999990010106900300784003999990010078100100783003999990010049200300490001999990010049300300196003999990010019300100195003999990010531500305313001999990010531600305613003999990010561000105612003999990010590300305901001999990010590400306189003999990010618600106188003999990010646600306464001999990010646700306738003999990010673500106737003999990010700200307000001999990010700300307262003999990010725900107261003999990010751300307511001999990010751400307759003999990010775600107758003999990010799600307994001999990010799700308227003999990010822400108226003999990010844900308447001999990010845000308666003999990010866300108665003999990010887300308871001999990010887400309074003999990010907100109073003999990010918400499999001091850030927900399999001092780049999900109370004999990010937100309461003999990010946000499999001095470049999900109548003096320039999900109631004999990010971200499999001097130030979100399999001097900049999900109865004999990010986600309936003999990010993500499999001100000049999900110001003100620039999900110061004999990011011700499999001101180031016700399999001101660049999900110207004999990011020800310239003999990011023800499999009

/-- `pad_grid.npz`: `grid[3370, 0], grid[3370, 10], …, grid[3370, 5580]`. -/
def padGrid337 : Nat :=
  999990070511800305119005050880050508700399999001050460030504700504998005049970039999900104941003049420050488100504880003999990010481500304816005047460050474500399999001046700030467100504593005045920039999900104511003045120050442800504427003999990010434000304341005042510050425000399999001041580030415900504065005040640039999900103953003039560010395500103954003037540030375500103756001037530039999900103545003035480010354700103546003033300030333100103332001033290039999900103106003031090010310800103107003028770030287800102879001028760039999900102638003026410010264000102639003023940030239500102396001023930039999900102141003021440010214300102142003018830030188400101885001018820039999900101617003016200010161900101618003013470030134800101349001013460039999900101068003010710010107000101069003007840030078500100786001007830039999900100492003004950010049400100493003001960030019700100198001001950039999900105315003053180010531700105316003056130030561400105615001056120039999900105903003059060010590500105904003061890030619000106191001061880039999900106466003064690010646800106467003067380030673900106740001067370039999900107002003070050010700400107003003072620030726300107264001072610039999900107513003075160010751500107514003077590030776000107761001077580039999900107996003079990010799800107997003082270030822800108229001082260039999900108449003084520010845100108450003086660030866700108668001086650039999900108873003088760010887500108874003090740030907500109076001090730039999900109184003091850050927900509278003999990010937000309371005094610050946000399999001095470030954800509632005096310039999900109712003097130050979100509790003999990010986500309866005099360050993500399999001100000031000100510062005100610039999900110117003101180051016700510166003999990011020700310208005102390051023800399999009

/-- `pad_grid.npz`: `grid[3380, 0], grid[3380, 10], …, grid[3380, 5580]`. -/
def padGrid338 : Nat :=
  9999900705118001051190070508800705087001999990010504600105047007049980070499700199999001049410010494200704881007048800019999900104815001048160070474600704745001999990010467000104671007045930070459200199999001045110010451200704428007044270019999900104340001043410070425100704250001999990010415800104159007040650070406400199999001039530010395600303955002999990010395400103754001999990010375500203756003037530019999900103545001035480030354700299999001035460010333000199999001033310020333200303329001999990010310600103109003031080029999900103107001028770019999900102878002028790030287600199999001026380010264100302640002999990010263900102394001999990010239500202396003023930019999900102141001021440030214300299999001021420010188300199999001018840020188500301882001999990010161700101620003016190029999900101618001013470019999900101348002013490030134600199999001010680010107100301070002999990010106900100784001999990010078500200786003007830019999900100492001004950030049400299999001004930010019600199999001001970020019800300195001999990010531500105318003053170029999900105316001056130019999900105614002056150030561200199999001059030010590600305905002999990010590400106189001999990010619000206191003061880019999900106466001064690030646800299999001064670010673800199999001067390020674000306737001999990010700200107005003070040029999900107003001072620019999900107263002072640030726100199999001075130010751600307515002999990010751400107759001999990010776000207761003077580019999900107996001079990030799800299999001079970010822700199999001082280020822900308226001999990010844900108452003084510029999900108450001086660019999900108667002086680030866500199999001088730010887600308875002999990010887400109074001999990010907500209076003090730019999900109184001091850070927900709278001999990010937000109371007094610070946000199999001095470010954800709632007096310019999900109712001097130070979100709790001999990010986500109866007099360070993500199999001100000011000100710062007100610019999900110117001101180071016700710166001999990011020700110208007102390071023800199999009

/-- `pad_grid.npz`: `grid[3390, 0], grid[3390, 10], …, grid[3390, 5580]`. -/
def padGrid339 : Nat :=
  999990070511900805088008999990010504700804998008999990010494200804881008999990010481600804746008999990010467100804593008999990010451200804428008999990010434100804251008999990010415900804065008999990010395600403955004037550040375600499999001035480040354700403331004033320049999900103109004031080040287800402879004999990010264100402640004023950040239600499999001021440040214300401884004018850049999900101620004016190040134800401349004999990010107100401070004007850040078600499999001004950040049400400197004001980049999900105318004053170040561400405615004999990010590600405905004061900040619100499999001064690040646800406739004067400049999900107005004070040040726300407264004999990010751600407515004077600040776100499999001079990040799800408228004082290049999900108452004084510040866700408668004999990010887600408875004090750040907600499999001091850080927900899999001093710080946100899999001095480080963200899999001097130080979100899999001098660080993600899999001100010081006200899999001101180081016700899999001102080081023900899999009

/-- `pad_grid.npz`: `grid[3400, 0], grid[3400, 10], …, grid[3400, 5580]`. -/
def padGrid340 : Nat :=
  999990080511900705088006999990010508900199999001050480010504700704998006999990010499900199999001049430010494200704881006999990010488200199999001048170010481600704746006999990010474700199999001046720010467100704593006999990010459400199999001045130010451200704428006999990010442900199999001043420010434100704251006999990010425200199999001041600010415900704065006999990010406600199999001039580010395600303955002039570020375700203755002037560029999900103758001999990010355000103548003035470020354900203333002033310020333200299999001033340019999900103111001031090030310800203110002028800020287800202879002999990010288100199999001026430010264100302640002026420020239700202395002023960029999900102398001999990010214600102144003021430020214500201886002018840020188500299999001018870019999900101622001999990010162000201619002016210020135000201348002013490029999900101351001999990010107300199999001010710020107000201072002007870020078500200786002999990010078800199999001004970019999900100495002004940020049600200199002001970020019800299999001002000019999900105320001999990010531800205317002053190020561600205614002056150029999900105617001999990010590800199999001059060020590500205907002061920020619000206191002999990010619300199999001064710019999900106469002064680020647000206741002067390020674000299999001067420019999900107007001999990010700500207004002070060020726500207263002072640030726600199999001075180019999900107516002075150020751700207762002077600020776100307763001999990010800100199999001079990020799800208000002082300020822800208229003082310019999900108454001999990010845200208451002084530020866900208667002086680030867000199999001088780019999900108876002088750020887700209077002090750020907600309078001999990010918600199999001091850060927900709280001999990010937200199999001093710060946100709462001999990010954900199999001095480060963200709633001999990010971400199999001097130060979100709792001999990010986700199999001098660060993600709937001999990011000200199999001100010061006200710063001999990011011900199999001101180061016700710168001999990011020900199999001102080061023900799999010

/-- `pad_grid.npz`: `grid[3410, 0], grid[3410, 10], …, grid[3410, 5580]`. -/
def padGrid341 : Nat :=
  9999901005119005050880050508900399999001050480030504700504998005049990039999900104943003049420050488100504882003999990010481700304816005047460050474700399999001046720030467100504593005045940039999900104513003045120050442800504429003999990010434200304341005042510050425200399999001041600030415900504065005040660039999900103958003039560010395700403757004037560010375800399999001035500030354800103549004033330040333200103334003999990010311100303109001031100040288000402879001028810039999900102643003026410010264200402397004023960010239800399999001021460030214400102145004018860040188500101887003999990010162200301620001016210040135000401349001013510039999900101073003010710010107200400787004007860010078800399999001004970030049500100496004001990040019800100200003999990010532000305318001053190040561600405615001056170039999900105908003059060010590700406192004061910010619300399999001064710030646900106470004067410040674000106742003999990010700700307005001070060040726500407264001072660039999900107518003075160010751700407762004077610010776300399999001080010030799900108000004082300040822900108231003999990010845400308452001084530040866900408668001086700039999900108878003088760010887700409077004090760010907800399999001091860030918500509279005092800039999900109372003093710050946100509462003999990010954900309548005096320050963300399999001097140030971300509791005097920039999900109867003098660050993600509937003999990011000200310001005100620051006300399999001101190031011800510167005101680039999900110209003102080051023900599999012

/-- `pad_grid.npz`: `grid[3420, 0], grid[3420, 10], …, grid[3420, 5580]`. -/
def padGrid342 : Nat :=
  99999012051190030508800305089005999990010504800505047003049980030499900599999001049430050494200304881003048820059999900104817005048160030474600304747005999990010467200504671003045930030459400599999001045130050451200304428003044290059999900104342005043410030425100304252005999990010416000504159003040650030406600599999001039580030395900103960001039570030375700303760001037590010375800399999001035500030355100103552001035490030333300303336001033350010333400399999001031110030311200103113001031100030288000302883001028820010288100399999001026430030264400102645001026420030239700302400001023990010239800399999001021460030214700102148001021450030188600301889001018880010188700399999001016220030162300101624001016210030135000301353001013520010135100399999001010730030107400101075001010720030078700300790001007890010078800399999001004970030049800100499001004960030019900300202001002010010020000399999001053200030532100105322001053190030561600305619001056180010561700399999001059080030590900105910001059070030619200306195001061940010619300399999001064710030647200106473001064700030674100306744001067430010674200399999001070070030700800107009001070060030726500307268001072670010726600399999001075180030751900107520001075170030776200307765001077640010776300399999001080010030800200108003001080000030823000308233001082320010823100399999001084540030845500108456001084530030866900308672001086710010867000399999001088780030887900108880001088770030907700309080001090790010907800399999001091860050918500309279003092800059999900109372005093710030946100309462005999990010954900509548003096320030963300599999001097140050971300309791003097920059999900109867005098660030993600309937005999990011000200510001003100620031006300599999001101190051011800310167003101680059999900110209005102080031023900399999014

/-- `pad_grid.npz`: `grid[3430, 0], grid[3430, 10], …, grid[3430, 5580]`. -/
def padGrid343 : Nat :=
  99999014051190010508800105089007999990010504800699999001050470010499800104999007999990010494300699999001049420010488100104882007999990010481700699999001048160010474600104747007999990010467200699999001046710010459300104594007999990010451300699999001045120010442800104429007999990010434200699999001043410010425100104252007999990010416000699999001041590010406500104066007999990010395800103959003039600029999900103957001037570010376000303759003037580019999900103550001035510030355200299999001035490010333300103336003033350030333400199999001031110010311200303113002999990010311000102880001028830030288200302881001999990010264300102644003026450029999900102642001023970010240000302399003023980019999900102146001021470030214800299999001021450010188600101889003018880030188700199999001016220010162300301624002999990010162100101350001013530030135200301351001999990010107300101074003010750029999900101072001007870010079000300789003007880019999900100497001004980030049900299999001004960010019900100202003002010030020000199999001053200010532100305322003053190010561600199999001056190020561800305617001999990010590800105909003059100030590700106192001999990010619500206194003061930019999900106471001064720030647300306470001067410019999900106744002067430030674200199999001070070010700800307009003070060010726500199999001072680020726700307266001999990010751800107519003075200030751700107762001999990010776500207764003077630019999900108001001080020030800300308000001082300019999900108233002082320030823100199999001084540010845500308456003084530010866900199999001086720020867100308670001999990010887800108879003088800030887700109077001999990010908000209079003090780019999900109186007091850010927900199999001092800069999900109372007093710010946100199999001094620069999900109549007095480010963200199999001096330069999900109714007097130010979100199999001097920069999900109867007098660010993600199999001099370069999900110002007100010011006200199999001100630069999900110119007101180011016700199999001101680069999900110209007102080011023900199999016

/-- `pad_grid.npz`: `grid[3440, 0], grid[3440, 10], …, grid[3440, 5580]`. -/
def padGrid344 : Nat :=
  99999015050890089999900105048008049990089999900104943008048820089999900104817008047470089999900104672008045940089999900104513008044290089999900104342008042520089999900104160008040660089999900103959004039600040376000403759004999990010355100403552004033360040333500499999001031120040311300402883004028820049999900102644004026450040240000402399004999990010214700402148004018890040188800499999001016230040162400401353004013520049999900101074004010750040079000400789004999990010049800400499004002020040020100499999001053210040532200405619004056180049999900105909004059100040619500406194004999990010647200406473004067440040674300499999001070080040700900407268004072670049999900107519004075200040776500407764004999990010800200408003004082330040823200499999001084550040845600408672004086710049999900108879004088800040908000409079004999990010918600809280008999990010937200809462008999990010954900809633008999990010971400809792008999990010986700809937008999990011000200810063008999990011011900810168008999990011020900899999017

/-- `pad_grid.npz`: `grid[3450, 0], grid[3450, 10], …, grid[3450, 5580]`. -/
def padGrid345 : Nat :=
  99999015050900020508900699999001050480060504900205000002049990069999900104943006049440020488300204882006999990010481700604818002047480020474700699999001046720060467300204595002045940069999900104513006045140020443000204429006999990010434200604343002042530020425200699999001041600060416100204067002040660069999900103961001999990010395900203960002039620020376200203760002037590029999900103761001999990010355300199999001035510020355200203554002033380020333600203335002999990010333700199999001031140019999900103112002031130020311500202885002028830020288200299999001028840019999900102646001999990010264400202645002026470020240200202400002023990029999900102401001999990010214900199999001021470020214800202150002018910020188900201888002999990010189000199999001016250019999900101623002016240020162600201355002013530020135200299999001013540019999900101076001999990010107400201075002010770020079200200790002007890029999900100791001999990010050000199999001004980020049900200501002002040020020200200201002999990010020300199999001053230019999900105321002053220020532400205621002056190020561800299999001056200019999900105911001999990010590900205910002059120020619700206195002061940029999900106196001999990010647400199999001064720020647300206475002067460020674400206743002999990010674500199999001070100019999900107008002070090020701100207270002072680020726700299999001072690019999900107521001999990010751900207520002075220020776700207765002077640029999900107766001999990010800400199999001080020020800300208005002082350020823300208232002999990010823400199999001084570019999900108455002084560020845800208674002086720020867100299999001086730019999900108881001999990010887900208880002088820020908200209080002090790029999900109081001999990010918600609187002092810020928000699999001093720060937300209463002094620069999900109549006095500020963400209633006999990010971400609715002097930020979200699999001098670060986800209938002099370069999900110002006100030021006400210063006999990011011900610120002101690021016800699999001102090061021000299999017

/-- `pad_grid.npz`: `grid[3460, 0], grid[3460, 10], …, grid[3460, 5580]`. -/
def padGrid346 : Nat :=
  999990150509000405089004999990010504800405049004050000040499900499999001049430040494400404883004048820049999900104817004048180040474800404747004999990010467200404673004045950040459400499999001045130040451400404430004044290049999900104342004043430040425300404252004999990010416000404161004040670040406600499999001039610030395900103962004037620040375900103761003999990010355300303551001035540040333800403335001033370039999900103114003031120010311500402885004028820010288400399999001026460030264400102647004024020040239900102401003999990010214900302147001021500040189100401888001018900039999900101625003016230010162600401355004013520010135400399999001010760030107400101077004007920040078900100791003999990010050000300498001005010040020400400201001002030039999900105323003053210010532400405621004056180010562000399999001059110030590900105912004061970040619400106196003999990010647400306472001064750040674600406743001067450039999900107010003070080010701100407270004072670010726900399999001075210030751900107522004077670040776400107766003999990010800400308002001080050040823500408232001082340039999900108457003084550010845800408674004086710010867300399999001088810030887900108882004090820040907900109081003999990010918600409187004092810040928000499999001093720040937300409463004094620049999900109549004095500040963400409633004999990010971400409715004097930040979200499999001098670040986800409938004099370049999900110002004100030041006400410063004999990011011900410120004101690041016800499999001102090041021000499999017

/-- `pad_grid.npz`: `grid[3470, 0], grid[3470, 10], …, grid[3470, 5580]`. -/
def padGrid347 : Nat :=
  99999015050900059999900105089002999990010504800299999001050490050500000599999001049990029999900104943002999990010494400504883005999990010488200299999001048170029999900104818005047480059999900104747002999990010467200299999001046730050459500599999001045940029999900104513002999990010451400504430005999990010442900299999001043420029999900104343005042530059999900104252002999990010416000299999001041610050406700599999001040660029999900103961002999990010396400103963001039620030376200303763001037640019999900103761002999990010355300299999001035560010355500103554003033380030333900103340001999990010333700299999001031140029999900103117001031160010311500302885003028860010288700199999001028840029999900102646002999990010264900102648001026470030240200302403001024040019999900102401002999990010214900299999001021520010215100102150003018910030189200101893001999990010189000299999001016250029999900101628001016270010162600301355003013560010135700199999001013540029999900101076002999990010107900101078001010770030079200300793001007940019999900100791002999990010050000299999001005030010050200100501003002040030020500100206001999990010020300299999001053230029999900105326001053250010532400305621003056220010562300199999001056200029999900105911002999990010591400105913001059120030619700306198001061990019999900106196002999990010647400299999001064770010647600106475003067460030674700106748001999990010674500299999001070100029999900107013001070120010701100307270003072710010727200199999001072690029999900107521002999990010752400107523001075220030776700307768001077690019999900107766002999990010800400299999001080070010800600108005003082350030823600108237001999990010823400299999001084570029999900108460001084590010845800308674003086750010867600199999001086730029999900108881002999990010888400108883001088820030908200309083001090840019999900109081002999990010918600299999001091870050928100599999001092800029999900109372002999990010937300509463005999990010946200299999001095490029999900109550005096340059999900109633002999990010971400299999001097150050979300599999001097920029999900109867002999990010986800509938005999990010993700299999001100020029999900110003005100640059999900110063002999990011011900299999001101200051016900599999001101680029999900110209002999990011021000599999017

/-- `pad_grid.npz`: `grid[3480, 0], grid[3480, 10], …, grid[3480, 5580]`. -/
def padGrid348 : Nat :=
  9999901505090007050890019999900105048001050490070500000704999001999990010494300104944007048830070488200199999001048170010481800704748007047470019999900104672001046730070459500704594001999990010451300104514007044300070442900199999001043420010434300704253007042520019999900104160001041610070406700704066001999990010396100103964003039630030396200103762001037630030376400303761001999990010355300103556003035550030355400103338001033390030334000303337001999990010311400103117003031160030311500102885001028860030288700302884001999990010264600102649003026480030264700102402001024030030240400302401001999990010214900102152003021510030215000101891001018920030189300301890001999990010162500101628003016270030162600101355001013560030135700301354001999990010107600101079003010780030107700100792001007930030079400300791001999990010050000100503003005020030050100100204001002050030020600300203001999990010532300105326003053250030532400105621001056220030562300305620001999990010591100105914003059130030591200106197001061980030619900306196001999990010647400106477003064760030647500106746001067470030674800306745001999990010701000107013003070120030701100107270001072710030727200307269001999990010752100107524003075230030752200107767001077680030776900307766001999990010800400108007003080060030800500108235001082360030823700308234001999990010845700108460003084590030845800108674001086750030867600308673001999990010888100108884003088830030888200109082001090830030908400309081001999990010918600109187007092810070928000199999001093720010937300709463007094620019999900109549001095500070963400709633001999990010971400109715007097930070979200199999001098670010986800709938007099370019999900110002001100030071006400710063001999990011011900110120007101690071016800199999001102090011021000799999017

/-- `pad_grid.npz`: `grid[3490, 0], grid[3490, 10], …, grid[3490, 5580]`. -/
def padGrid349 : Nat :=
  9999901505090008999990010504900805000008999990010494400804883008999990010481800804748008999990010467300804595008999990010451400804430008999990010434300804253008999990010416100804067008999990010396400403963003999990020376300303764004999990010355600403555003999990020333900303340004999990010311700403116003999990020288600302887004999990010264900402648003999990020240300302404004999990010215200402151003999990020189200301893004999990010162800401627003999990020135600301357004999990010107900401078003999990020079300300794004999990010050300400502003999990020020500300206004999990010532600405325003999990020562200305623004999990010591400405913003999990020619800306199004999990010647700406476003999990020674700306748004999990010701300407012003999990020727100307272004999990010752400407523003999990020776800307769004999990010800700408006003999990020823600308237004999990010846000408459003999990020867500308676004999990010888400408883003999990020908300309084004999990010918700809281008999990010937300809463008999990010955000809634008999990010971500809793008999990010986800809938008999990011000300810064008999990011012000810169008999990011021000899999017

/-- `pad_grid.npz`: `grid[3500, 0], grid[3500, 10], …, grid[3500, 5580]`. -/
def padGrid350 : Nat :=
  9999901505090006050910029999900105050002050490060500000605001002999990010494500204944006048830060488400299999001048190020481800604748006047490029999900104674002046730060459500604596002999990010451500204514006044300060443100299999001043440020434300604253006042540029999900104162002041610060406700604068002999990010396600203964002039630020396500203765002037630020376400203766002999990010355800203556002035550020355700203341002033390020334000203342002999990010311900203117002031160020311800202888002028860020288700202889002999990010265100202649002026480020265000202405002024030020240400202406002999990010215400202152002021510020215300201894002018920020189300201895002999990010163000201628002016270020162900201358002013560020135700201359002999990010108100201079002010780020108000200795002007930020079400200796002999990010050500200503002005020020050400200207002002050020020600200208002999990010532800205326002053250020532700205624002056220020562300205625002999990010591600205914002059130020591500206200002061980020619900206201002999990010647900206477002064760020647800206749002067470020674800206750002999990010701500207013002070120020701400207273002072710020727200207274002999990010752600207524002075230020752500207770002077680020776900207771002999990010800900208007002080060020800800208238002082360020823700208239002999990010846200208460002084590020846100208677002086750020867600208678002999990010888600208884002088830020888500209085002090830020908400209086002999990010918800209187006092810060928200299999001093740020937300609463006094640029999900109551002095500060963400609635002999990010971600209715006097930060979400299999001098690020986800609938006099390029999900110004002100030061006400610065002999990011012100210120006101690061017000299999001102110021021000699999017

/-- `pad_grid.npz`: `grid[3510, 0], grid[3510, 10], …, grid[3510, 5580]`. -/
def padGrid351 : Nat :=
  999990150509000499999001050910039999900105050003999990010504900405000004999990010500100399999001049450039999900104944004048830049999900104884003999990010481900399999001048180040474800499999001047490039999900104674003999990010467300404595004999990010459600399999001045150039999900104514004044300049999900104431003999990010434400399999001043430040425300499999001042540039999900104162003999990010416100404067004999990010406800399999001039660039999900103965004037650049999900103766003999990010355800399999001035570040334100499999001033420039999900103119003999990010311800402888004999990010288900399999001026510039999900102650004024050049999900102406003999990010215400399999001021530040189400499999001018950039999900101630003999990010162900401358004999990010135900399999001010810039999900101080004007950049999900100796003999990010050500399999001005040040020700499999001002080039999900105328003999990010532700405624004999990010562500399999001059160039999900105915004062000049999900106201003999990010647900399999001064780040674900499999001067500039999900107015003999990010701400407273004999990010727400399999001075260039999900107525004077700049999900107771003999990010800900399999001080080040823800499999001082390039999900108462003999990010846100408677004999990010867800399999001088860039999900108885004090850049999900109086003999990010918800399999001091870040928100499999001092820039999900109374003999990010937300409463004999990010946400399999001095510039999900109550004096340049999900109635003999990010971600399999001097150040979300499999001097940039999900109869003999990010986800409938004999990010993900399999001100040039999900110003004100640049999900110065003999990011012100399999001101200041016900499999001101700039999900110211003999990011021000499999017

/-- `pad_grid.npz`: `grid[3520, 0], grid[3520, 10], …, grid[3520, 5580]`. -/
def padGrid352 : Nat :=
  9999901505090003050910059999900105050005050490030500000305001005999990010494500504944003048830030488400599999001048190050481800304748003047490059999900104674005046730030459500304596005999990010451500504514003044300030443100599999001043440050434300304253003042540059999900104162005041610030406700304068005999990010396600203967002039680010396500303765003037680010376700203766002999990010355800203559002035600010355700303341003033440010334300203342002999990010311900203120002031210010311800302888003028910010289000202889002999990010265100202652002026530010265000302405003024080010240700202406002999990010215400202155002021560010215300301894003018970010189600201895002999990010163000201631002016320010162900301358003013610010136000201359002999990010108100201082002010830010108000300795003007980010079700200796002999990010050500200506002005070010050400300207003002100010020900200208002999990010532800205329002053300010532700305624003056270010562600205625002999990010591600205917002059180010591500306200003062030010620200206201002999990010647900206480002064810010647800306749003067520010675100206750002999990010701500207016002070170010701400307273003072760010727500207274002999990010752600207527002075280010752500307770003077730010777200207771002999990010800900208010002080110010800800308238003082410010824000208239002999990010846200208463002084640010846100308677003086800010867900208678002999990010888600208887002088880010888500309085003090880010908700209086002999990010918800509187003092810030928200599999001093740050937300309463003094640059999900109551005095500030963400309635005999990010971600509715003097930030979400599999001098690050986800309938003099390059999900110004005100030031006400310065005999990011012100510120003101690031017000599999001102110051021000399999017

/-- `pad_grid.npz`: `grid[3530, 0], grid[3530, 10], …, grid[3530, 5580]`. -/
def padGrid353 : Nat :=
  999990150509000105091007999990010505000705049001050000010500100799999001049450070494400104883001048840079999900104819007048180010474800104749007999990010467400704673001045950010459600799999001045150070451400104430001044310079999900104344007043430010425300104254007999990010416200704161001040670010406800799999002039670030396800303965001037650010376800303767003999990030355900303560003035570010334100103344003033430039999900303120003031210030311800102888001028910030289000399999003026520030265300302650001024050010240800302407003999990030215500302156003021530010189400101897003018960039999900301631003016320030162900101358001013610030136000399999003010820030108300301080001007950010079800300797003999990030050600300507003005040010020700100210003002090039999900305329003053300030532700105624001056270030562600399999003059170030591800305915001062000010620300306202003999990030648000306481003064780010674900106752003067510039999900307016003070170030701400107273001072760030727500399999003075270030752800307525001077700010777300307772003999990030801000308011003080080010823800108241003082400039999900308463003084640030846100108677001086800030867900399999003088870030888800308885001090850010908800309087003999990020918800709187001092810010928200799999001093740070937300109463001094640079999900109551007095500010963400109635007999990010971600709715001097930010979400799999001098690070986800109938001099390079999900110004007100030011006400110065007999990011012100710120001101690011017000799999001102110071021000199999017

/-- `pad_grid.npz`: `grid[3540, 0], grid[3540, 10], …, grid[3540, 5580]`. -/
def padGrid354 : Nat :=
  999990150509200105091007999990010505000705051001050020010500100799999001049450070494600104885001048840079999900104819007048200010475000104749007999990010467400704675001045970010459600799999001045150070451600104432001044310079999900104344007043450010425500104254007999990010416200704163001040690010406800799999001039670040396800303970001037700010376800303767004999990010355900403560003035620010334600103344003033430049999900103120004031210030312300102893001028910030289000499999001026520040265300302655001024100010240800302407004999990010215500402156003021580010189900101897003018960049999900101631004016320030163400101363001013610030136000499999001010820040108300301085001008000010079800300797004999990010050600400507003005090010021200100210003002090049999900105329004053300030533200105629001056270030562600499999001059170040591800305920001062050010620300306202004999990010648000406481003064830010675400106752003067510049999900107016004070170030701900107278001072760030727500499999001075270040752800307530001077750010777300307772004999990010801000408011003080130010824300108241003082400049999900108463004084640030846600108682001086800030867900499999001088870040888800308890001090900010908800309087004999990010918800709189001092830010928200799999001093740070937500109465001094640079999900109551007095520010963600109635007999990010971600709717001097950010979400799999001098690070987000109940001099390079999900110004007100050011006600110065007999990011012100710122001101710011017000799999001102110071021200199999017

/-- `pad_grid.npz`: `grid[3550, 0], grid[3550, 10], …, grid[3550, 5580]`. -/
def padGrid355 : Nat :=
  99999015050920020509100699999001050500059999900105051002050020020500100699999001049450059999900104946002048850020488400699999001048190059999900104820002047500020474900699999001046740059999900104675002045970020459600699999001045150059999900104516002044320020443100699999001043440059999900104345002042550020425400699999001041620059999900104163002040690020406800699999001039690020396700203968001999990010397000203770002037680020376700203769002999990010356100203559002035600019999900103562002033460020334400203343002033450029999900103122002031200020312100199999001031230020289300202891002028900020289200299999001026540020265200202653002026550020241000202408002024070020240900299999001021570020215500202156002021580020189900201897002018960020189800299999001016330020163100201632002016340020136300201361002013600020136200299999001010840020108200201083002010850020080000200798002007970020079900299999001005080020050600200507002005090020021200200210002002090020021100299999001053310020532900205330002053320020562900205627002056260020562800299999001059190020591700205918002059200020620500206203002062020020620400299999001064820020648000206481002064830020675400206752002067510020675300299999001070180020701600207017002070190020727800207276002072750020727700299999001075290020752700207528002075300020777500207773002077720020777400299999001080120020801000208011002080130020824300299999001082410010824000208242002999990010846500208463002084640020846600208682002999990010868000108679002086810029999900108889002088870020888800208890002090900029999900109088001090870020908900299999001091880060918900209283002999990010928200599999001093740060937500209465002999990010946400599999001095510060955200209636002999990010963500599999001097160060971700209795002999990010979400599999001098690060987000209940002999990010993900599999001100040061000500210066002999990011006500599999001101210061012200210171002999990011017000599999001102110061021200299999017

/-- `pad_grid.npz`: `grid[3560, 0], grid[3560, 10], …, grid[3560, 5580]`. -/
def padGrid356 : Nat :=
  99999015050920040509100499999001050500040505100405002004050010049999900104945004049460040488500404884004999990010481900404820004047500040474900499999001046740040467500404597004045960049999900104515004045160040443200404431004999990010434400404345004042550040425400499999001041620040416300404069004040680049999900103969003999990010397000403770004037690049999900103561003999990010356200403346004033450049999900103122003999990010312300402893004028920049999900102654004026550040241000402409004999990010215700402158004018990040189800499999001016330040163400401363004013620049999900101084004010850040080000400799004999990010050800400509004002120040021100499999001053310040533200405629004056280049999900105919004059200040620500406204004999990010648200406483004067540040675300499999001070180040701900407278004072770049999900107529004075300040777500407774004999990010801200408013004082430049999900108242003999990010846500408466004086820049999900108681003999990010888900408890004090900049999900109089003999990010918800409189004092830040928200499999001093740040937500409465004094640049999900109551004095520040963600409635004999990010971600409717004097950040979400499999001098690040987000409940004099390049999900110004004100050041006600410065004999990011012100410122004101710041017000499999001102110041021200499999017

/-- `pad_grid.npz`: `grid[3570, 0], grid[3570, 10], …, grid[3570, 5580]`. -/
def padGrid357 : Nat :=
  9999901505092006050910029999900105050002050510060500200605001002999990010494500204946006048850060488400299999001048190020482000604750006047490029999900104674002046750060459700604596002999990010451500204516006044320060443100299999001043440020434500604255006042540029999900104162002041630060406900604068002999990010396900203972002039710010397000303770003037710010377200203769002999990010356100203564002035630010356200303346003033470010334800203345002999990010312200203125002031240010312300302893003028940010289500202892002999990010265400202657002026560010265500302410003024110010241200202409002999990010215700202160002021590010215800301899003019000010190100201898002999990010163300201636002016350010163400301363003013640010136500201362002999990010108400201087002010860010108500300800003008010010080200200799002999990010050800200511002005100010050900300212003002130010021400200211002999990010533100205334002053330010533200305629003056300010563100205628002999990010591900205922002059210010592000306205003062060010620700206204002999990010648200206485002064840010648300306754003067550010675600206753002999990010701800207021002070200010701900307278003072790010728000207277002999990010752900207532002075310010753000307775003077760010777700207774002999990010801200208015002080140010801300308243003082440010824500208242002999990010846500208468002084670010846600308682003086830010868400208681002999990010888900208892002088910010889000309090003090910010909200209089002999990010918800209189006092830060928200299999001093740020937500609465006094640029999900109551002095520060963600609635002999990010971600209717006097950060979400299999001098690020987000609940006099390029999900110004002100050061006600610065002999990011012100210122006101710061017000299999001102110021021200699999017

/-- `pad_grid.npz`: `grid[3580, 0], grid[3580, 10], …, grid[3580, 5580]`. -/
def padGrid358 : Nat :=
  999990150509200799999002050510080500200799999002049460080488500799999002048200080475000799999002046750080459700799999002045160080443200799999002043450080425500799999002041630080406900799999003039720030397100303970001037700010377100303772003999990030356400303563003035620010334600103347003033480039999900303125003031240030312300102893001028940030289500399999003026570030265600302655001024100010241100302412003999990030216000302159003021580010189900101900003019010039999900301636003016350030163400101363001013640030136500399999003010870030108600301085001008000010080100300802003999990030051100300510003005090010021200100213003002140039999900305334003053330030533200105629001056300030563100399999003059220030592100305920001062050010620600306207003999990030648500306484003064830010675400106755003067560039999900307021003070200030701900107278001072790030728000399999003075320030753100307530001077750010777600307777003999990030801500308014003080130010824300108244003082450039999900308468003084670030846600108682001086830030868400399999003088920030889100308890001090900010909100309092003999990030918900709283008999990020937500709465008999990020955200709636008999990020971700709795008999990020987000709940008999990021000500710066008999990021012200710171008999990021021200799999017

/-- `pad_grid.npz`: `grid[3590, 0], grid[3590, 10], …, grid[3590, 5580]`. -/
def padGrid359 : Nat :=
  999990150509200899999001050510080500200899999001049460080488500899999001048200080475000899999001046750080459700899999001045160080443200899999001043450080425500899999001041630080406900899999001039720040397100303973001037730010377100303772004999990010356400403563003035650010334900103347003033480049999900103125004031240030312600102896001028940030289500499999001026570040265600302658001024130010241100302412004999990010216000402159003021610010190200101900003019010049999900101636004016350030163700101366001013640030136500499999001010870040108600301088001008030010080100300802004999990010051100400510003005120010021500100213003002140049999900105334004053330030533500105632001056300030563100499999001059220040592100305923001062080010620600306207004999990010648500406484003064860010675700106755003067560049999900107021004070200030702200107281001072790030728000499999001075320040753100307533001077780010777600307777004999990010801500408014003080160010824600108244003082450049999900108468004084670030846900108685001086830030868400499999001088920040889100308893001090930010909100309092004999990010918900809283008999990010937500809465008999990010955200809636008999990010971700809795008999990010987000809940008999990011000500810066008999990011012200810171008999990011021200899999017

/-- `pad_grid.npz`: `grid[3600, 0], grid[3600, 10], …, grid[3600, 5580]`. -/
def padGrid360 : Nat :=
  99999015050920060509300299999001050520020505100605002006050030029999900104947002049460060488500604886002999990010482100204820006047500060475100299999001046760020467500604597006045980029999900104517002045160060443200604433002999990010434600204345006042550060425600299999001041640020416300604069006040700029999900103974002039720020397100199999001039730020377300299999001037710010377200203774002999990010356600203564002035630019999900103565002033490029999900103347001033480020335000299999001031270020312500203124001999990010312600202896002999990010289400102895002028970029999900102659002026570020265600199999001026580020241300299999001024110010241200202414002999990010216200202160002021590019999900102161002019020029999900101900001019010020190300299999001016380020163600201635001999990010163700201366002999990010136400101365002013670029999900101089002010870020108600199999001010880020080300299999001008010010080200200804002999990010051300200511002005100019999900100512002002150029999900100213001002140020021600299999001053360020533400205333001999990010533500205632002999990010563000105631002056330029999900105924002059220020592100199999001059230020620800299999001062060010620700206209002999990010648700206485002064840019999900106486002067570029999900106755001067560020675800299999001070230020702100207020001999990010702200207281002999990010727900107280002072820029999900107534002075320020753100199999001075330020777800299999001077760010777700207779002999990010801700208015002080140019999900108016002082460029999900108244001082450020824700299999001084700020846800208467001999990010846900208685002999990010868300108684002086860029999900108894002088920020889100199999001088930020909300299999001090910010909200209094002999990010919000209189006092830060928400299999001093760020937500609465006094660029999900109553002095520060963600609637002999990010971800209717006097950060979600299999001098710020987000609940006099410029999900110006002100050061006600610067002999990011012300210122006101710061017200299999001102130021021200699999017

/-- `pad_grid.npz`: `grid[3610, 0], grid[3610, 10], …, grid[3610, 5580]`. -/
def padGrid361 : Nat :=
  99999015050920040509300499999001050520040505100405002004050030049999900104947004049460040488500404886004999990010482100404820004047500040475100499999001046760040467500404597004045980049999900104517004045160040443200404433004999990010434600404345004042550040425600499999001041640040416300404069004040700049999900103974004039730040377300403774004999990010356600403565004033490040335000499999001031270040312600402896004028970049999900102659004026580040241300402414004999990010216200402161004019020040190300499999001016380040163700401366004013670049999900101089004010880040080300400804004999990010051300400512004002150040021600499999001053360040533500405632004056330049999900105924004059230040620800406209004999990010648700406486004067570040675800499999001070230040702200407281004072820049999900107534004075330040777800407779004999990010801700408016004082460040824700499999001084700040846900408685004086860049999900108894004088930040909300409094004999990010919000409189004092830040928400499999001093760040937500409465004094660049999900109553004095520040963600409637004999990010971800409717004097950040979600499999001098710040987000409940004099410049999900110006004100050041006600410067004999990011012300410122004101710041017200499999001102130041021200499999017

/-- `pad_grid.npz`: `grid[3620, 0], grid[3620, 10], …, grid[3620, 5580]`. -/
def padGrid362 : Nat :=
  999990150509200299999001050930059999900105052005999990010505100205002002999990010500300599999001049470059999900104946002048850029999900104886005999990010482100599999001048200020475000299999001047510059999900104676005999990010467500204597002999990010459800599999001045170059999900104516002044320029999900104433005999990010434600599999001043450020425500299999001042560059999900104164005999990010416300204069002999990010407000599999001039740059999900103973002037730029999900103776001037750020377400299999001035660020356700203568001999990010356500203349002999990010335200103351002033500029999900103127002031280020312900199999001031260020289600299999001028990010289800202897002999990010265900202660002026610019999900102658002024130029999900102416001024150020241400299999001021620020216300202164001999990010216100201902002999990010190500101904002019030029999900101638002016390020164000199999001016370020136600299999001013690010136800201367002999990010108900201090002010910019999900101088002008030029999900100806001008050020080400299999001005130020051400200515001999990010051200200215002999990010021800100217002002160029999900105336002053370020533800199999001053350020563200299999001056350010563400205633002999990010592400205925002059260019999900105923002062080029999900106211001062100020620900299999001064870020648800206489001999990010648600206757002999990010676000106759002067580029999900107023002070240020702500199999001070220020728100299999001072840010728300207282002999990010753400207535002075360019999900107533002077780029999900107781001077800020777900299999001080170020801800208019001999990010801600208246002999990010824900108248002082470029999900108470002084710020847200199999001084690020868500299999001086880010868700208686002999990010889400208895002088960019999900108893002090930029999900109094005999990010919000599999001091890020928300299999001092840059999900109376005999990010937500209465002999990010946600599999001095530059999900109552002096360029999900109637005999990010971800599999001097170020979500299999001097960059999900109871005999990010987000209940002999990010994100599999001100060059999900110005002100660029999900110067005999990011012300599999001101220021017100299999001101720059999900110213005999990011021200299999017

/-- `pad_grid.npz`: `grid[3630, 0], grid[3630, 10], …, grid[3630, 5580]`. -/
def padGrid363 : Nat :=
  99999015050920010509300799999001050520070505100105002001050030079999900104947007049460010488500104886007999990010482100704820001047500010475100799999001046760070467500104597001045980079999900104517007045160010443200104433007999990010434600704345001042550010425600799999001041640070416300104069001040700079999900103974007039730010377300103776003037750049999900103567004035680030356500103349001033520030335100499999001031280040312900303126001028960010289900302898004999990010266000402661003026580010241300102416003024150049999900102163004021640030216100101902001019050030190400499999001016390040164000301637001013660010136900301368004999990010109000401091003010880010080300100806003008050049999900100514004005150030051200100215001002180030021700499999001053370040533800305335001056320010563500305634004999990010592500405926003059230010620800106211003062100049999900106488004064890030648600106757001067600030675900499999001070240040702500307022001072810010728400307283004999990010753500407536003075330010777800107781003077800049999900108018004080190030801600108246001082490030824800499999001084710040847200308469001086850010868800308687004999990010889500408896003088930010909300109094007999990010919000709189001092830010928400799999001093760070937500109465001094660079999900109553007095520010963600109637007999990010971800709717001097950010979600799999001098710070987000109940001099410079999900110006007100050011006600110067007999990011012300710122001101710011017200799999001102130071021200199999017

/-- `pad_grid.npz`: `grid[3640, 0], grid[3640, 10], …, grid[3640, 5580]`. -/
def padGrid364 : Nat :=
  99999015050940010509300799999001050520070505300105004001050030079999900104947007049480010488700104886007999990010482100704822001047520010475100799999001046760070467700104599001045980079999900104517007045180010443400104433007999990010434600704347001042570010425600799999001041640070416500104071001040700079999900103974007039750010377800103776003037750039999900303567003035680030357000103354001033520030335100399999003031280030312900303131001029010010289900302898003999990030266000302661003026630010241800102416003024150039999900302163003021640030216600101907001019050030190400399999003016390030164000301642001013710010136900301368003999990030109000301091003010930010080800100806003008050039999900300514003005150030051700100220001002180030021700399999003053370030533800305340001056370010563500305634003999990030592500305926003059280010621300106211003062100039999900306488003064890030649100106762001067600030675900399999003070240030702500307027001072860010728400307283003999990030753500307536003075380010778300107781003077800039999900308018003080190030802100108251001082490030824800399999003084710030847200308474001086900010868800308687003999990030889500308896003088980010909500109094007999990010919000709191001092850010928400799999001093760070937700109467001094660079999900109553007095540010963800109637007999990010971800709719001097970010979600799999001098710070987200109942001099410079999900110006007100070011006800110067007999990011012300710124001101730011017200799999001102130071021400199999017

/-- `pad_grid.npz`: `grid[3650, 0], grid[3650, 10], …, grid[3650, 5580]`. -/
def padGrid365 : Nat :=
  99999015050940030509300599999001050520050505300305004003050030059999900104947005049480030488700304886005999990010482100504822003047520030475100599999001046760050467700304599003045980059999900104517005045180030443400304433005999990010434600504347003042570030425600599999001041640050416500304071003040700059999900103974005039750030377800303776001037750020377700299999001035690020356700203568001035700030335400303352001033510020335300299999001031300020312800203129001031310030290100302899001028980020290000299999001026620020266000202661001026630030241800302416001024150020241700299999001021650020216300202164001021660030190700301905001019040020190600299999001016410020163900201640001016420030137100301369001013680020137000299999001010920020109000201091001010930030080800300806001008050020080700299999001005160020051400200515001005170030022000300218001002170020021900299999001053390020533700205338001053400030563700305635001056340020563600299999001059270020592500205926001059280030621300306211001062100020621200299999001064900020648800206489001064910030676200306760001067590020676100299999001070260020702400207025001070270030728600307284001072830020728500299999001075370020753500207536001075380030778300307781001077800020778200299999001080200020801800208019001080210030825100308249001082480020825000299999001084730020847100208472001084740030869000308688001086870020868900299999001088970020889500208896001088980030909500309094005999990010919000509191003092850030928400599999001093760050937700309467003094660059999900109553005095540030963800309637005999990010971800509719003097970030979600599999001098710050987200309942003099410059999900110006005100070031006800310067005999990011012300510124003101730031017200599999001102130051021400399999017

/-- `pad_grid.npz`: `grid[3660, 0], grid[3660, 10], …, grid[3660, 5580]`. -/
def padGrid366 : Nat :=
  9999901505094004050930049999900105052003999990010505300405004004050030049999900104947003999990010494800404887004999990010488600399999001048210039999900104822004047520049999900104751003999990010467600399999001046770040459900499999001045980039999900104517003999990010451800404434004999990010443300399999001043460039999900104347004042570049999900104256003999990010416400399999001041650040407100499999001040700039999900103974003999990010397500403778004999990010377700399999001035690039999900103570004033540049999900103353003999990010313000399999001031310040290100499999001029000039999900102662003999990010266300402418004999990010241700399999001021650039999900102166004019070049999900101906003999990010164100399999001016420040137100499999001013700039999900101092003999990010109300400808004999990010080700399999001005160039999900100517004002200049999900100219003999990010533900399999001053400040563700499999001056360039999900105927003999990010592800406213004999990010621200399999001064900039999900106491004067620049999900106761003999990010702600399999001070270040728600499999001072850039999900107537003999990010753800407783004999990010778200399999001080200039999900108021004082510049999900108250003999990010847300399999001084740040869000499999001086890039999900108897003999990010889800409095004999990010909400399999001091900039999900109191004092850049999900109284003999990010937600399999001093770040946700499999001094660039999900109553003999990010955400409638004999990010963700399999001097180039999900109719004097970049999900109796003999990010987100399999001098720040994200499999001099410039999900110006003999990011000700410068004999990011006700399999001101230041012400410173004999990011017200399999001102130041021400499999017

/-- `pad_grid.npz`: `grid[3670, 0], grid[3670, 10], …, grid[3670, 5580]`. -/
def padGrid367 : Nat :=
  999990150509400605093002999990010505200205053006050040060500300299999001049470020494800604887006048860029999900104821002048220060475200604751002999990010467600204677006045990060459800299999001045170020451800604434006044330029999900104346002043470060425700604256002999990010416400204165006040710060407000299999001039740020397500603778006037770029999900103569002035720020357100203570002033540020335500203356002033530029999900103130002031330020313200203131002029010020290200202903002029000029999900102662002026650020266400202663002024180020241900202420002024170029999900102165002021680020216700202166002019070020190800201909002019060029999900101641002016440020164300201642002013710020137200201373002013700029999900101092002010950020109400201093002008080020080900200810002008070029999900100516002005190020051800200517002002200020022100200222002002190029999900105339002053420020534100205340002056370020563800205639002056360029999900105927002059300020592900205928002062130020621400206215002062120029999900106490002064930020649200206491002067620020676300206764002067610029999900107026002070290020702800207027002072860020728700207288002072850029999900107537002075400020753900207538002077830020778400207785002077820029999900108020002080230020802200208021002082510020825200208253002082500029999900108473002084760020847500208474002086900020869100208692002086890029999900108897002088980060909500609094002999990010919000209191006092850060928400299999001093760020937700609467006094660029999900109553002095540060963800609637002999990010971800209719006097970060979600299999001098710020987200609942006099410029999900110006002100070061006800610067002999990011012300210124006101730061017200299999001102130021021400699999017

/-- `pad_grid.npz`: `grid[3680, 0], grid[3680, 10], …, grid[3680, 5580]`. -/
def padGrid368 : Nat :=
  99999015050940089999900105053008050040089999900104948008048870089999900104822008047520089999900104677008045990089999900104518008044340089999900104347008042570089999900104165008040710089999900103975008037780089999900103572004035710030357000199999001033550030335600499999001031330040313200303131001999990010290200302903004999990010266500402664003026630019999900102419003024200049999900102168004021670030216600199999001019080030190900499999001016440040164300301642001999990010137200301373004999990010109500401094003010930019999900100809003008100049999900100519004005180030051700100220001002210030022200499999001053420040534100305340001056370010563800305639004999990010593000405929003999990010621300106214003062150049999900106493004064920039999900106762001067630030676400499999001070290040702800399999001072860010728700307288004999990010754000407539003999990010778300107784003077850049999900108023004080220039999900108251001082520030825300499999001084760040847500399999001086900010869100308692004999990010889800809095008999990010919100809285008999990010937700809467008999990010955400809638008999990010971900809797008999990010987200809942008999990011000700810068008999990011012400810173008999990011021400899999017

/-- `pad_grid.npz`: `grid[3690, 0], grid[3690, 10], …, grid[3690, 5580]`. -/
def padGrid369 : Nat :=
  999990150509400799999003050530070500400705005001999990020494800704887007048880019999900204822007047520070475300199999002046770070459900704600001999990020451800704434007044350019999900104348001043470070425700704258001999990010416600104165007040710070407200199999001039760010397500703778007037790019999900103574001035720030357100303573001033570010335500303356003033580019999900103135001031330030313200303134001029040010290200302903003029050019999900102667001026650030266400302666001024210010241900302420003024220019999900102170001021680030216700302169001019100010190800301909003019110019999900101646001016440030164300301645001013740010137200301373003013750019999900101097001010950030109400301096001008110010080900300810003008120019999900100521001005190030051800300520001002230010022100300222003002240019999900105344001053420030534100305343001056400010563800305639003056410019999900105932001059300030592900305931001062160010621400306215003062170019999900106495001064930030649200306494001067650010676300306764003067660019999900107031001070290030702800307030001072890010728700307288003072900019999900107542001075400030753900307541001077860010778400307785003077870019999900108025001080230030802200308024001082540010825200308253003082550019999900108478001084760030847500308477001086930010869100308692003086940019999900108899001088980070909500709096001999990010919200109191007092850070928600199999001093780010937700709467007094680019999900109555001095540070963800799999002097200010971900709797007999990020987300109872007099420079999900210008001100070071006800799999002101250011012400710173007999990031021400799999017

/-- `pad_grid.npz`: `grid[3700, 0], grid[3700, 10], …, grid[3700, 5580]`. -/
def padGrid370 : Nat :=
  99999015050940059999900405054002050530060500400605005002999990010494900204948006048870060488800299999001048230020482200604752006047530029999900104678002046770060459900604600002999990010451900204518006044340060443500299999001043480020434700604257006042580029999900104166002041650060407100604072002999990010397600203975006037780060377900299999001035740020357200203571001035730030335700303355001033560020335800299999001031350020313300203132001031340030290400302902001029030020290500299999001026670020266500202664001026660030242100302419001024200020242200299999001021700020216800202167001021690030191000301908001019090020191100299999001016460020164400201643001016450030137400301372001013730020137500299999001010970020109500201094001010960030081100300809001008100020081200299999001005210020051900200518001005200030022300300221001002220020022400299999001053440020534200205341001053430030564000305638001056390020564100299999001059320020593000205929001059310030621600306214001062150020621700299999001064950020649300206492001064940030676500306763001067640020676600299999001070310020702900207028001070300030728900307287001072880020729000299999001075420020754000207539001075410030778600307784001077850020778700299999001080250020802300208022001080240030825400308252001082530020825500299999001084780020847600208475001084770030869300308691001086920020869400299999001088990020889800609095006090960029999900109192002091910060928500609286002999990010937800209377006094670060946800299999001095550020955400609638006096390029999900109720002097190060979700609798002999990010987300209872006099420060994300299999001100080021000700610068006100690029999900110125002101240061017300610174002999990041021400599999017

/-- `pad_grid.npz`: `grid[3710, 0], grid[3710, 10], …, grid[3710, 5580]`. -/
def padGrid371 : Nat :=
  99999015050940049999900505054004050530040500400405005004999990010494900404948004048870040488800499999001048230040482200404752004047530049999900104678004046770040459900404600004999990010451900404518004044340040443500499999001043480040434700404257004042580049999900104166004041650040407100404072004999990010397600403975004037780040377900499999001035740040357300403357004999990010335800399999001031350030313600103134004029040049999900102905003999990010266700302668001026660040242100499999001024220039999900102170003021710010216900401910004999990010191100399999001016460039999900101645004013740049999900101375003999990010109700399999001010960040081100499999001008120039999900100521003999990010052000400223004999990010022400399999001053440039999900105343004056400049999900105641003999990010593200399999001059310040621600499999001062170039999900106495003999990010649400406765004999990010676600399999001070310039999900107030004072890040729100107290003999990010754200399999001075410040778600407788001077870039999900108025003999990010802400408254004082560010825500399999001084780039999900108477004086930040869400499999001088990040889800409095004090960049999900109192004091910040928500409286004999990010937800409377004094670040946800499999001095550040955400409638004096390049999900109720004097190040979700409798004999990010987300409872004099420040994300499999001100080041000700410068004100690049999900110125004101240041017300410174004999990051021400499999017

/-- `pad_grid.npz`: `grid[3720, 0], grid[3720, 10], …, grid[3720, 5580]`. -/
def padGrid372 : Nat :=
  999990150509400299999007050540060505300205004002050050069999900104949006049480020488700204888006999990010482300604822002047520020475300699999001046780060467700204599002046000069999900104519006045180020443400204435006999990010434800604347002042570020425800699999001041660060416500204071002040720069999900103976006039750020377800203779006999990010357400603573002033570020336000203359002033580029999900103135002031360020313700203134002029040020290700202906002029050029999900102667002026680020266900202666002024210020242400202423002024220029999900102170002021710020217200202169002019100020191300201912002019110029999900101646002016470020164800201645002013740020137700201376002013750029999900101097002010980020109900201096002008110020081400200813002008120029999900100521002005220020052300200520002002230020022600200225002002240029999900105344002053450020534600205343002056400020564300205642002056410029999900105932002059330020593400205931002062160020621900206218002062170029999900106495002064960020649700206494002067650020676800206767002067660029999900107031002070320020703300207030002072890020729200207291002072900029999900107542002075430020754400207541002077860020778900207788002077870029999900108025002080260020802700208024002082540020825700208256002082550029999900108478002084790020848000208477002086930020869400699999001088990060889800209095002090960069999900109192006091910020928500209286006999990010937800609377002094670020946800699999001095550060955400209638002096390069999900109720006097190020979700209798006999990010987300609872002099420020994300699999001100080061000700210068002100690069999900110125006101240021017300210174006999990071021400299999017

/-- `pad_grid.npz`: `grid[3730, 0], grid[3730, 10], …, grid[3730, 5580]`. -/
def padGrid373 : Nat :=
  999990240505400799999002050050079999900104949007999990020488800799999001048230079999900204753007999990010467800799999002046000079999900104519007999990020443500799999001043480079999900204258007999990010416600799999002040720079999900103976007999990020377900799999001035740079999900203360003033590049999900103136004031370039999900202907003029060049999900102668004026690039999900202424003024230049999900102171004021720039999900201913003019120049999900101647004016480039999900201377003013760049999900101098004010990039999900200814003008130049999900100522004005230039999900200226003002250049999900105345004053460039999900205643003056420049999900105933004059340039999900206219003062180049999900106496004064970039999900206768003067670049999900107032004070330039999900207292003072910049999900107543004075440039999900207789003077880049999900108026004080270039999900208257003082560049999900108479004084800039999900208694007999990010889900799999002090960079999900109192007999990020928600799999001093780079999900209468007999990010955500799999002096390079999900109720007999990020979800799999001098730079999900209943007999990011000800799999002100690079999900110125007999990021017400799999026

/-- `pad_grid.npz`: `grid[3740, 0], grid[3740, 10], …, grid[3740, 5580]`. -/
def padGrid374 : Nat :=
  9999902405054007050550010500600105005007999990010494900704950001048890010488800799999001048230070482400104754001047530079999900104678007046790010460100104600007999990010451900704520001044360010443500799999001043480070434900104259001042580079999900104166007041670010407300104072007999990010397600703977001037800010377900799999001035740070357500103362001033600030335900303361001999990010313800103136003031370030313900102909001029070030290600302908001999990010267000102668003026690030267100102426001024240030242300302425001999990010217300102171003021720030217400101915001019130030191200301914001999990010164900101647003016480030165000101379001013770030137600301378001999990010110000101098003010990030110100100816001008140030081300300815001999990010052400100522003005230030052500100228001002260030022500300227001999990010534700105345003053460030534800105645001056430030564200305644001999990010593500105933003059340030593600106221001062190030621800306220001999990010649800106496003064970030649900106770001067680030676700306769001999990010703400107032003070330030703500107294001072920030729100307293001999990010754500107543003075440030754600107791001077890030778800307790001999990010802800108026003080270030802900108259001082570030825600308258001999990010848100108479003084800030848200108695001086940079999900108899007089000010909700109096007999990010919200709193001092870010928600799999001093780070937900109469001094680079999900109555007095560010964000109639007999990010972000709721001097990010979800799999001098730070987400109944001099430079999900110008007100090011007000110069007999990011012500710126001101750011017400799999026

/-- `pad_grid.npz`: `grid[3750, 0], grid[3750, 10], …, grid[3750, 5580]`. -/
def padGrid375 : Nat :=
  99999024050540050505500305006003050050059999900104949005049500030488900304888005999990010482300504824003047540030475300599999001046780050467900304601003046000059999900104519005045200030443600304435005999990010434800504349003042590030425800599999001041660050416700304073003040720059999900103976005039770030378000303779005999990010357400503575003033620030336000103359001999990010336100299999001031380029999900103136001031370010313900302909003029070010290600199999001029080029999900102670002999990010266800102669001026710030242600302424001024230019999900102425002999990010217300299999001021710010217200102174003019150030191300101912001999990010191400299999001016490029999900101647001016480010165000301379003013770010137600199999001013780029999900101100002999990010109800101099001011010030081600300814001008130019999900100815002999990010052400299999001005220010052300100525003002280030022600100225001999990010022700299999001053470029999900105345001053460010534800305645003056430010564200199999001056440029999900105935002999990010593300105934001059360030622100306219001062180019999900106220002999990010649800299999001064960010649700106499003067700030676800106767001999990010676900299999001070340029999900107032001070330010703500307294003072920010729100199999001072930029999900107545002999990010754300107544001075460030779100307789001077880019999900107790002999990010802800299999001080260010802700108029003082590030825700108256001999990010825800299999001084810029999900108479001084800010848200308695003086940059999900108899005089000030909700309096005999990010919200509193003092870030928600599999001093780050937900309469003094680059999900109555005095560030964000309639005999990010972000509721003097990030979800599999001098730050987400309944003099430059999900110008005100090031007000310069005999990011012500510126003101750031017400599999026

/-- `pad_grid.npz`: `grid[3760, 0], grid[3760, 10], …, grid[3760, 5580]`. -/
def padGrid376 : Nat :=
  99999024050540030505500505006005050050039999900104949003049500050488900504888003999990010482300304824005047540050475300399999001046780030467900504601005046000039999900104519003045200050443600504435003999990010434800304349005042590050425800399999001041660030416700504073005040720039999900103976003039770050378000503779003999990010357400303575005033620050336100399999001031380030314100103139004029090040291100102908003999990010267000302673001026710040242600402428001024250039999900102173003021760010217400401915004019170010191400399999001016490030165200101650004013790040138100101378003999990010110000301103001011010040081600400818001008150039999900100524003005270010052500400228004002300010022700399999001053470030535000105348004056450040564700105644003999990010593500305938001059360040622100406223001062200039999900106498003065010010649900406770004067720010676900399999001070340030703700107035004072940040729600107293003999990010754500307548001075460040779100407793001077900039999900108028003080310010802900408259004082610010825800399999001084810030848200508695005086940039999900108899003089000050909700509096003999990010919200309193005092870050928600399999001093780030937900509469005094680039999900109555003095560050964000509639003999990010972000309721005097990050979800399999001098730030987400509944005099430039999900110008003100090051007000510069003999990011012500310126005101750051017400399999026

/-- `pad_grid.npz`: `grid[3770, 0], grid[3770, 10], …, grid[3770, 5580]`. -/
def padGrid377 : Nat :=
  99999024050540019999900105055006050060069999900105005001999990010494900199999001049500060488900699999001048880019999900104823001999990010482400604754006999990010475300199999001046780019999900104679006046010069999900104600001999990010451900199999001045200060443600699999001044350019999900104348001999990010434900604259006999990010425800199999001041660019999900104167006040730069999900104072001999990010397600199999001039770060378000699999001037790019999900103574001999990010357500603362006999990010336100199999001031380019999900103141002031400020313900202909002029100020291100299999001029080019999900102670001999990010267300202672002026710020242600202427002024280029999900102425001999990010217300199999001021760020217500202174002019150020191600201917002999990010191400199999001016490019999900101652002016510020165000201379002013800020138100299999001013780019999900101100001999990010110300201102002011010020081600200817002008180029999900100815001999990010052400199999001005270020052600200525002002280020022900200230002999990010022700199999001053470019999900105350002053490020534800205645002056460020564700299999001056440019999900105935001999990010593800205937002059360020622100206222002062230029999900106220001999990010649800199999001065010020650000206499002067700020677100206772002999990010676900199999001070340019999900107037002070360020703500207294002072950020729600299999001072930019999900107545001999990010754800207547002075460020779100207792002077930029999900107790001999990010802800199999001080310020803000208029002082590020826000208261002999990010825800199999001084810019999900108482006086950069999900108694001999990010889900199999001089000060909700699999001090960019999900109192001999990010919300609287006999990010928600199999001093780019999900109379006094690069999900109468001999990010955500199999001095560060964000699999001096390019999900109720001999990010972100609799006999990010979800199999001098730019999900109874006099440069999900109943001999990011000800199999001100090061007000699999001100690019999900110125001999990011012600610175006999990011017400199999026

/-- `pad_grid.npz`: `grid[3780, 0], grid[3780, 10], …, grid[3780, 5580]`. -/
def padGrid378 : Nat :=
  99999024050550080500600899999001049500080488900899999001048240080475400899999001046790080460100899999001045200080443600899999001043490080425900899999001041670080407300899999001039770080378000899999001035750080336200899999001031410040314000402910004029110049999900102673004026720040242700402428004999990010217600402175004019160040191700499999001016520040165100401380004013810049999900101103004011020040081700400818004999990010052700400526004002290040023000499999001053500040534900405646004056470049999900105938004059370040622200406223004999990010650100406500004067710040677200499999001070370040703600407295004072960049999900107548004075470040779200407793004999990010803100408030004082600040826100499999001084820080869500899999001089000080909700899999001091930080928700899999001093790080946900899999001095560080964000899999001097210080979900899999001098740080994400899999001100090081007000899999001101260081017500899999026

/-- `pad_grid.npz`: `grid[3790, 0], grid[3790, 10], …, grid[3790, 5580]`. -/
def padGrid379 : Nat :=
  99999024050560010505500705006007050070019999900104951001049500070488900704890001999990010482500104824007047540070475500199999001046800010467900704601007046020019999900104521001045200070443600704437001999990010435000104349007042590070426000199999001041680010416700704073007040740019999900103978001039770070378000703781001999990010357600103575007033620070336300199999001031430010314100303140002999990010314200102912001999990010291000202911003029130019999900102675001026730030267200299999001026740010242900199999001024270020242800302430001999990010217800102176003021750029999900102177001019180019999900101916002019170030191900199999001016540010165200301651002999990010165300101382001999990010138000201381003013830019999900101105001011030030110200299999001011040010081900199999001008170020081800300820001999990010052900100527003005260029999900100528001002310019999900100229002002300030023200199999001053520010535000305349002999990010535100105648001999990010564600205647003056490019999900105940001059380030593700299999001059390010622400199999001062220020622300306225001999990010650300106501003065000029999900106502001067730019999900106771002067720030677400199999001070390010703700307036002999990010703800107297001999990010729500207296003072980019999900107550001075480030754700299999001075490010779400199999001077920020779300307795001999990010803300108031003080300029999900108032001082620019999900108260002082610030826300199999001084830010848200708695007086960019999900108901001089000070909700709098001999990010919400109193007092870070928800199999001093800010937900709469007094700019999900109557001095560070964000709641001999990010972200109721007097990070980000199999001098750010987400709944007099450019999900110010001100090071007000710071001999990011012700110126007101750071017600199999026

/-- `pad_grid.npz`: `grid[3800, 0], grid[3800, 10], …, grid[3800, 5580]`. -/
def padGrid380 : Nat :=
  99999024050560030505500505006005050070039999900104951003049500050488900504890003999990010482500304824005047540050475500399999001046800030467900504601005046020039999900104521003045200050443600504437003999990010435000304349005042590050426000399999001041680030416700504073005040740039999900103978003039770050378000503781003999990010357600303575005033620050336300399999001031430030314100103140001031420030291200302910001029110010291300399999001026750030267300102672001026740030242900302427001024280010243000399999001021780030217600102175001021770030191800301916001019170010191900399999001016540030165200101651001016530030138200301380001013810010138300399999001011050030110300101102001011040030081900300817001008180010082000399999001005290030052700100526001005280030023100300229001002300010023200399999001053520030535000105349001053510030564800305646001056470010564900399999001059400030593800105937001059390030622400306222001062230010622500399999001065030030650100106500001065020030677300306771001067720010677400399999001070390030703700107036001070380030729700307295001072960010729800399999001075500030754800107547001075490030779400307792001077930010779500399999001080330030803100108030001080320030826200308260001082610010826300399999001084830030848200508695005086960039999900108901003089000050909700509098003999990010919400309193005092870050928800399999001093800030937900509469005094700039999900109557003095560050964000509641003999990010972200309721005097990050980000399999001098750030987400509944005099450039999900110010003100090051007000510071003999990011012700310126005101750051017600399999026

/-- `pad_grid.npz`: `grid[3810, 0], grid[3810, 10], …, grid[3810, 5580]`. -/
def padGrid381 : Nat :=
  99999024050560040505500405006003999990010500700499999001049510040495000404889003999990010489000499999001048250040482400404754003999990010475500499999001046800040467900404601003999990010460200499999001045210040452000404436003999990010443700499999001043500040434900404259003999990010426000499999001041680040416700404073003999990010407400499999001039780040397700403780003999990010378100499999001035760040357500403362003999990010336300499999001031430040314200402912003999990010291400102913003999990010267500302676001026740040242900399999001024310010243000399999001021780030217900199999001021770030191800399999001019200010191900399999001016540030165500199999001016530030138200399999001013840010138300399999001011050030110600199999001011040030081900399999001008210010082000399999001005290030053000199999001005280030023100399999001002330010023200399999001053520030535300199999001053510030564800399999001056500010564900399999001059400030594100199999001059390030622400399999001062260010622500399999001065030030650400199999001065020030677300399999001067750010677400399999001070390030704000199999001070380030729700399999001072990010729800399999001075500030755100199999001075490030779400407796001077950039999900108033003080340019999900108032003082620040826300499999001084830049999900108482003086950040869600499999001089010049999900108900003090970040909800499999001091940049999900109193003092870040928800499999001093800049999900109379003094690040947000499999001095570049999900109556003096400040964100499999001097220049999900109721003097990040980000499999001098750049999900109874003099440040994500499999001100100049999900110009003100700041007100499999001101270049999900110126003101750041017600499999026

/-- `pad_grid.npz`: `grid[3820, 0], grid[3820, 10], …, grid[3820, 5580]`. -/
def padGrid382 : Nat :=
  999990240505600605055002050060020500700699999001049510060495000204889002048900069999900104825006048240020475400204755006999990010468000604679002046010020460200699999001045210060452000204436002044370069999900104350006043490020425900204260006999990010416800604167002040730020407400699999001039780060397700203780002037810069999900103576006035750020336200203363006999990010314300603142002029120020291500202914003029130019999900102675001026760030267700202674002024290020243200202431003024300019999900102178001021790030218000202177002019180020192100201920003019190019999900101654001016550030165600201653002013820020138500201384003013830019999900101105001011060030110700201104002008190020082200200821003008200019999900100529001005300030053100200528002002310020023400200233003002320019999900105352001053530030535400205351002056480020565100205650003056490019999900105940001059410030594200205939002062240020622700206226003062250019999900106503001065040030650500206502002067730020677600206775003067740019999900107039001070400030704100207038002072970020730000207299003072980019999900107550001075510030755200207549002077940020779700207796003077950019999900108033001080340030803500208032002082620020826300699999001084830060848200208695002086960069999900108901006089000020909700209098006999990010919400609193002092870020928800699999001093800060937900209469002094700069999900109557006095560020964000209641006999990010972200609721002097990020980000699999001098750060987400209944002099450069999900110010006100090021007000210071006999990011012700610126002101750021017600699999026

/-- `pad_grid.npz`: `grid[3830, 0], grid[3830, 10], …, grid[3830, 5580]`. -/
def padGrid383 : Nat :=
  9999902405056008050070089999900104951008048900089999900104825008047550089999900104680008046020089999900104521008044370089999900104350008042600089999900104168008040740089999900103978008037810089999900103576008033630089999900103143008029150040291400499999001026760040267700402432004024310049999900102179004021800040192100401920004999990010165500401656004013850040138400499999001011060040110700400822004008210049999900100530004005310040023400400233004999990010535300405354004056510040565000499999001059410040594200406227004062260049999900106504004065050040677600406775004999990010704000407041004073000040729900499999001075510040755200407797004077960049999900108034004080350040826300899999001084830080869600899999001089010080909800899999001091940080928800899999001093800080947000899999001095570080964100899999001097220080980000899999001098750080994500899999001100100081007100899999001101270081017600899999026

/-- `pad_grid.npz`: `grid[3840, 0], grid[3840, 10], …, grid[3840, 5580]`. -/
def padGrid384 : Nat :=
  9999902405056006050570020500800199999001050070069999900104951006049520020489100199999001048900069999900104825006048260020475600199999001047550069999900104680006046810020460300199999001046020069999900104521006045220020443800199999001044370069999900104350006043510020426100199999001042600069999900104168006041690020407500199999001040740069999900103978006039790020378200199999001037810069999900103576006035770020336400199999001033630069999900103143006031440020291700199999001029150020291400302916001999990010267800102676003026770020267900202434001999990010243200202431003024330019999900102181001021790030218000202182002019230019999900101921002019200030192200199999001016570010165500301656002016580020138700199999001013850020138400301386001999990010110800101106003011070020110900200824002008220020082100300823001999990010053200100530003005310020053300200236002002340020023300300235001999990010535500105353003053540020535600205653002056510020565000305652001999990010594300105941003059420020594400206229002062270020622600306228001999990010650600106504003065050029999900106507001067780020677600206775003067770019999900107042001070400030704100299999001070430010730200207300002072990030730100199999001075530010755100307552002999990010755400107799002077970020779600307798001999990010803600108034003080350029999900108037001082640020826300699999001084830069999900108484001086970020869600699999001089010069999900108902001090990020909800699999001091940069999900109195001092890020928800699999001093800069999900109381001094710020947000699999001095570069999900109558001096420020964100699999001097220069999900109723001098010020980000699999001098750069999900109876001099460020994500699999001100100069999900110011001100720021007100699999001101270069999900110128001101770021017600699999026

/-- `pad_grid.npz`: `grid[3850, 0], grid[3850, 10], …, grid[3850, 5580]`. -/
def padGrid385 : Nat :=
  999990240505600505057003050080030500700599999001049510050495200304891003048900059999900104825005048260030475600304755005999990010468000504681003046030030460200599999001045210050452200304438003044370059999900104350005043510030426100304260005999990010416800504169003040750030407400599999001039780050397900303782003037810059999900103576005035770030336400303363005999990010314300503144003029170030291500102914001029160039999900102678003026760010267700102679003024340030243200102431001024330039999900102181003021790010218000102182003019230030192100101920001019220039999900101657003016550010165600101658003013870030138500101384001013860039999900101108003011060010110700101109003008240030082200100821001008230039999900100532003005300010053100100533003002360030023400100233001002350039999900105355003053530010535400105356003056530030565100105650001056520039999900105943003059410010594200105944003062290030622700106226001062280039999900106506003065040010650500106507003067780030677600106775001067770039999900107042003070400010704100107043003073020030730000107299001073010039999900107553003075510010755200107554003077990030779700107796001077980039999900108036003080340010803500108037003082640030826300599999001084830050848400308697003086960059999900108901005089020030909900309098005999990010919400509195003092890030928800599999001093800050938100309471003094700059999900109557005095580030964200309641005999990010972200509723003098010030980000599999001098750050987600309946003099450059999900110010005100110031007200310071005999990011012700510128003101770031017600599999026

/-- `pad_grid.npz`: `grid[3860, 0], grid[3860, 10], …, grid[3860, 5580]`. -/
def padGrid386 : Nat :=
  9999902405056003050570050500800505007003999990010495100304952005048910050489000399999001048250030482600504756005047550039999900104680003046810050460300504602003999990010452100304522005044380050443700399999001043500030435100504261005042600039999900104168003041690050407500504074003999990010397800303979005037820050378100399999001035760030357700503364005033630039999900103143003031440050291700502916003999990010267800302681001999990010267900302434003999990010243600102433003999990010218100302184001999990010218200301923003999990010192500101922003999990010165700301660001999990010165800301387003999990010138900101386003999990010110800301111001999990010110900300824003999990010082600100823003999990010053200300535001999990010053300300236003999990010023800100235003999990010535500305358001999990010535600305653003999990010565500105652003999990010594300305946001999990010594400306229003999990010623100106228003999990010650600306509001999990010650700306778003999990010678000106777003999990010704200307045001999990010704300307302003999990010730400107301003999990010755300307556001999990010755400307799003999990010780100107798003999990010803600308037005082640050826300399999001084830030848400508697005086960039999900108901003089020050909900509098003999990010919400309195005092890050928800399999001093800030938100509471005094700039999900109557003095580050964200509641003999990010972200309723005098010050980000399999001098750030987600509946005099450039999900110010003100110051007200510071003999990011012700310128005101770051017600399999026

/-- `pad_grid.npz`: `grid[3870, 0], grid[3870, 10], …, grid[3870, 5580]`. -/
def padGrid387 : Nat :=
  9999902405056001050570070500800705007001999990010495100104952007048910070489000199999001048250010482600704756007047550019999900104680001046810070460300704602001999990010452100104522007044380070443700199999001043500010435100704261007042600019999900104168001041690070407500704074001999990010397800103979007037820070378100199999001035760010357700703364007033630019999900103143001031440070291700702916001999990010267800102681003026800020267900202434002024350020243600302433001999990010218100102184003021830020218200201923002019240020192500301922001999990010165700101660003016590020165800201387002013880020138900301386001999990010110800101111003011100020110900200824002008250020082600300823001999990010053200100535003005340020053300200236002002370020023800300235001999990010535500105358003053570020535600205653002056540020565500305652001999990010594300105946003059450020594400206229002062300020623100306228001999990010650600106509003065080020650700206778002067790020678000306777001999990010704200107045003070440020704300207302002073030020730400307301001999990010755300107556003075550020755400207799002078000020780100307798001999990010803600108037007082640070826300199999001084830010848400708697007086960019999900108901001089020070909900709098001999990010919400109195007092890070928800199999001093800010938100709471007094700019999900109557001095580070964200709641001999990010972200109723007098010070980000199999001098750010987600709946007099450019999900110010001100110071007200710071001999990011012700110128007101770071017600199999026

/-- `pad_grid.npz`: `grid[3880, 0], grid[3880, 10], …, grid[3880, 5580]`. -/
def padGrid388 : Nat :=
  999990240505700805008008999990010495200804891008999990010482600804756008999990010468100804603008999990010452200804438008999990010435100804261008999990010416900804075008999990010397900803782008999990010357700803364008999990010314400802917008999990010268100402680004024350040243600499999001021840040218300401924004019250049999900101660004016590040138800401389004999990010111100401110004008250040082600499999001005350040053400400237004002380049999900105358004053570040565400405655004999990010594600405945004062300040623100499999001065090040650800406779004067800049999900107045004070440040730300407304004999990010755600407555004078000040780100499999001080370080826400899999001084840080869700899999001089020080909900899999001091950080928900899999001093810080947100899999001095580080964200899999001097230080980100899999001098760080994600899999001100110081007200899999001101280081017700899999026

/-- `pad_grid.npz`: `grid[3890, 0], grid[3890, 10], …, grid[3890, 5580]`. -/
def padGrid389 : Nat :=
  999990250505700705008007050090019999900104953001049520070489100704892001999990010482700104826007047560070475700199999001046820010468100704603007046040019999900104523001045220070443800704439001999990010435200104351007042610070426200199999001041700010416900704075007040760019999900103980001039790070378200703783001999990010357800103577007033640070336500199999001031450010314400702917007029180019999900102683001026810030268000202682002024370020243500202436003024380019999900102186001021840030218300202185002019260020192400201925003019270019999900101662001016600030165900201661002013900020138800201389003013910019999900101113001011110030111000201112002008270020082500200826003008280019999900100537001005350030053400200536002002390020023700200238003002400019999900105360001053580030535700205359002056560020565400205655003056570019999900105948001059460030594500205947002062320020623000206231003062330019999900106511001065090030650800206510002067810020677900206780003067820019999900107047001070450030704400207046002073050020730300207304003073060019999900107558001075560030755500207557002078020020780000207801003078030019999900108038001080370070826400708265001999990010848500108484007086970070869800199999001089030010890200709099007091000019999900109196001091950070928900709290001999990010938200109381007094710070947200199999001095590010955800709642007096430019999900109724001097230070980100709802001999990010987700109876007099460070994700199999001100120011001100710072007100730019999900110129001101280071017700799999027

/-- `pad_grid.npz`: `grid[3900, 0], grid[3900, 10], …, grid[3900, 5580]`. -/
def padGrid390 : Nat :=
  999990270505700505008005050090039999900104953003049520050489100504892003999990010482700304826005047560050475700399999001046820030468100504603005046040039999900104523003045220050443800504439003999990010435200304351005042610050426200399999001041700030416900504075005040760039999900103980003039790050378200503783003999990010357800303577005033640050336500399999001031450030314400502917005029180039999900102683003026810019999900102682003024370039999900102436001024380039999900102186003021840019999900102185003019260039999900101925001019270039999900101662003016600019999900101661003013900039999900101389001013910039999900101113003011110019999900101112003008270039999900100826001008280039999900100537003005350019999900100536003002390039999900100238001002400039999900105360003053580019999900105359003056560039999900105655001056570039999900105948003059460019999900105947003062320039999900106231001062330039999900106511003065090019999900106510003067810039999900106780001067820039999900107047003070450019999900107046003073050039999900107304001073060039999900107558003075560019999900107557003078020039999900107801001078030039999900108038003080370050826400508265003999990010848500308484005086970050869800399999001089030030890200509099005091000039999900109196003091950050928900509290003999990010938200309381005094710050947200399999001095590030955800509642005096430039999900109724003097230050980100509802003999990010987700309876005099460050994700399999001100120031001100510072005100730039999900110129003101280051017700599999029

/-- `pad_grid.npz`: `grid[3910, 0], grid[3910, 10], …, grid[3910, 5580]`. -/
def padGrid391 : Nat :=
  9999902905057003050080030500900599999001049530050495200304891003048920059999900104827005048260030475600304757005999990010468200504681003046030030460400599999001045230050452200304438003044390059999900104352005043510030426100304262005999990010417000504169003040750030407600599999001039800050397900303782003037830059999900103578005035770030336400303365005999990010314500503144003029170030291800599999001026830050268200302437003024400010243900102438003999990010218600302187001021880010218500301926003019290010192800101927003999990010166200301663001016640010166100301390003013930010139200101391003999990010111300301114001011150010111200300827003008300010082900100828003999990010053700300538001005390010053600300239003002420010024100100240003999990010536000305361001053620010535900305656003056590010565800105657003999990010594800305949001059500010594700306232003062350010623400106233003999990010651100306512001065130010651000306781003067840010678300106782003999990010704700307048001070490010704600307305003073080010730700107306003999990010755800307559001075600010755700307802003078030059999900108038005080370030826400308265005999990010848500508484003086970030869800599999001089030050890200309099003091000059999900109196005091950030928900309290005999990010938200509381003094710030947200599999001095590050955800309642003096430059999900109724005097230030980100309802005999990010987700509876003099460030994700599999001100120051001100310072003100730059999900110129005101280031017700399999031

/-- `pad_grid.npz`: `grid[3920, 0], grid[3920, 10], …, grid[3920, 5580]`. -/
def padGrid392 : Nat :=
  999990310505700105008001999990010500900699999001049530069999900104952001048910019999900104892006999990010482700699999001048260010475600199999001047570069999900104682006999990010468100104603001999990010460400699999001045230069999900104522001044380019999900104439006999990010435200699999001043510010426100199999001042620069999900104170006999990010416900104075001999990010407600699999001039800069999900103979001037820019999900103783006999990010357800699999001035770010336400199999001033650069999900103145006999990010314400102917001999990010291800699999001026830069999900102682001024370019999900102440002024390030243800199999001021860010218700302188002999990010218500101926001999990010192900201928003019270019999900101662001016630030166400299999001016610010139000199999001013930020139200301391001999990010111300101114003011150029999900101112001008270019999900100830002008290030082800199999001005370010053800300539002999990010053600100239001999990010024200200241003002400019999900105360001053610030536200299999001053590010565600199999001056590020565800305657001999990010594800105949003059500029999900105947001062320019999900106235002062340030623300199999001065110010651200306513002999990010651000106781001999990010678400206783003067820019999900107047001070480030704900299999001070460010730500199999001073080020730700307306001999990010755800107559003075600029999900107557001078020019999900107803006999990010803800699999001080370010826400199999001082650069999900108485006999990010848400108697001999990010869800699999001089030069999900108902001090990019999900109100006999990010919600699999001091950010928900199999001092900069999900109382006999990010938100109471001999990010947200699999001095590069999900109558001096420019999900109643006999990010972400699999001097230010980100199999001098020069999900109877006999990010987600109946001999990010994700699999001100120069999900110011001100720019999900110073006999990011012900699999001101280011017700199999033

/-- `pad_grid.npz`: `grid[3930, 0], grid[3930, 10], …, grid[3930, 5580]`. -/
def padGrid393 : Nat :=
  9999903205009008999990010495300804892008999990010482700804757008999990010468200804604008999990010452300804439008999990010435200804262008999990010417000804076008999990010398000803783008999990010357800803365008999990010314500802918008999990010268300802440004024390049999900102187004021880040192900401928004999990010166300401664004013930040139200499999001011140040111500400830004008290049999900100538004005390040024200400241004999990010536100405362004056590040565800499999001059490040595000406235004062340049999900106512004065130040678400406783004999990010704800407049004073080040730700499999001075590040756000407803008999990010803800808265008999990010848500808698008999990010890300809100008999990010919600809290008999990010938200809472008999990010955900809643008999990010972400809802008999990010987700809947008999990011001200810073008999990011012900899999034

/-- `pad_grid.npz`: `grid[3940, 0], grid[3940, 10], …, grid[3940, 5580]`. -/
def padGrid394 : Nat :=
  999990320501000205009006999990010495300604954002048930020489200699999001048270060482800204758002047570069999900104682006046830020460500204604006999990010452300604524002044400020443900699999001043520060435300204263002042620069999900104170006041710020407700204076006999990010398000603981002037840020378300699999001035780060357900203366002033650069999900103145006031460020291900202918006999990010268300602684002024420020244000202439002999990010244100199999001021890019999900102187002021880020219000201931002019290020192800299999001019300019999900101665001999990010166300201664002016660020139500201393002013920029999900101394001999990010111600199999001011140020111500201117002008320020083000200829002999990010083100199999001005400019999900100538002005390020054100200244002002420020024100299999001002430019999900105363001999990010536100205362002053640020566100205659002056580029999900105660001999990010595100199999001059490020595000205952002062370020623500206234002999990010623600199999001065140019999900106512002065130020651500206786002067840020678300299999001067850019999900107050001999990010704800207049002070510020731000207308002073070029999900107309001999990010756100199999001075590020756000207562002078040020780300699999001080380060803900208266002082650069999900108485006084860020869900208698006999990010890300608904002091010020910000699999001091960060919700209291002092900069999900109382006093830020947300209472006999990010955900609560002096440020964300699999001097240060972500209803002098020069999900109877006098780020994800209947006999990011001200610013002100740021007300699999001101290061013000299999034

/-- `pad_grid.npz`: `grid[3950, 0], grid[3950, 10], …, grid[3950, 5580]`. -/
def padGrid395 : Nat :=
  999990320501000405009004999990010495300404954004048930040489200499999001048270040482800404758004047570049999900104682004046830040460500404604004999990010452300404524004044400040443900499999001043520040435300404263004042620049999900104170004041710040407700404076004999990010398000403981004037840040378300499999001035780040357900403366004033650049999900103145004031460040291900402918004999990010268300402684004024420040243900102441003999990010218900302187001021900040193100401928001019300039999900101665003016630010166600401395004013920010139400399999001011160030111400101117004008320040082900100831003999990010054000300538001005410040024400400241001002430039999900105363003053610010536400405661004056580010566000399999001059510030594900105952004062370040623400106236003999990010651400306512001065150040678600406783001067850039999900107050003070480010705100407310004073070010730900399999001075610030755900107562004078040040780300499999001080380040803900408266004082650049999900108485004084860040869900408698004999990010890300408904004091010040910000499999001091960040919700409291004092900049999900109382004093830040947300409472004999990010955900409560004096440040964300499999001097240040972500409803004098020049999900109877004098780040994800409947004999990011001200410013004100740041007300499999001101290041013000499999034

/-- `pad_grid.npz`: `grid[3960, 0], grid[3960, 10], …, grid[3960, 5580]`. -/
def padGrid396 : Nat :=
  99999032050100050500900399999001049530029999900104954005048930050489200399999001048270029999900104828005047580050475700399999001046820029999900104683005046050050460400399999001045230029999900104524005044400050443900399999001043520029999900104353005042630050426200399999001041700029999900104171005040770050407600399999001039800029999900103981005037840050378300399999001035780029999900103579005033660050336500399999001031450029999900103146005029190050291800399999001026830029999900102684005024420050244100399999001021890030219200102191001021900030193100301932001019330010193000399999001016650030166800101667001016660030139500301396001013970010139400399999001011160030111900101118001011170030083200300833001008340010083100399999001005400030054300100542001005410030024400300245001002460010024300399999001053630030536600105365001053640030566100305662001056630010566000399999001059510030595400105953001059520030623700306238001062390010623600399999001065140030651700106516001065150030678600306787001067880010678500399999001070500030705300107052001070510030731000307311001073120010730900399999001075610030756200507804005999990010780300299999001080380030803900508266005999990010826500299999001084850030848600508699005999990010869800299999001089030030890400509101005999990010910000299999001091960030919700509291005999990010929000299999001093820030938300509473005999990010947200299999001095590030956000509644005999990010964300299999001097240030972500509803005999990010980200299999001098770030987800509948005999990010994700299999001100120031001300510074005999990011007300299999001101290031013000599999034

/-- `pad_grid.npz`: `grid[3970, 0], grid[3970, 10], …, grid[3970, 5580]`. -/
def padGrid397 : Nat :=
  9999903205010007050090019999900104953001049540070489300704892001999990010482700104828007047580070475700199999001046820010468300704605007046040019999900104523001045240070444000704439001999990010435200104353007042630070426200199999001041700010417100704077007040760019999900103980001039810070378400703783001999990010357800103579007033660070336500199999001031450010314600702919007029180019999900102683001026840070244200702441001999990010218900102192003021910030219000101931001019320030193300301930001999990010166500101668003016670030166600101395001013960030139700301394001999990010111600101119003011180030111700100832001008330030083400300831001999990010054000100543003005420030054100100244001002450030024600300243001999990010536300105366003053650030536400105661001056620030566300305660001999990010595100105954003059530030595200106237001062380030623900306236001999990010651400106517003065160030651500106786001067870030678800306785001999990010705000107053003070520030705100107310001073110030731200307309001999990010756100107562007078040070780300199999001080380010803900708266007082650019999900108485001084860070869900708698001999990010890300108904007091010070910000199999001091960010919700709291007092900019999900109382001093830070947300709472001999990010955900109560007096440070964300199999001097240010972500709803007098020019999900109877001098780070994800709947001999990011001200110013007100740071007300199999001101290011013000799999034

/-- `pad_grid.npz`: `grid[3980, 0], grid[3980, 10], …, grid[3980, 5580]`. -/
def padGrid398 : Nat :=
  999990320501000899999001049540080489300899999001048280080475800899999001046830080460500899999001045240080444000899999001043530080426300899999001041710080407700899999001039810080378400899999001035790080336600899999001031460080291900899999001026840080244200899999001021920040219100401932004019330049999900101668004016670040139600401397004999990010111900401118004008330040083400499999001005430040054200400245004002460049999900105366004053650040566200405663004999990010595400405953004062380040623900499999001065170040651600406787004067880049999900107053004070520040731100407312004999990010756200807804008999990010803900808266008999990010848600808699008999990010890400809101008999990010919700809291008999990010938300809473008999990010956000809644008999990010972500809803008999990010987800809948008999990011001300810074008999990011013000899999034

/-- `pad_grid.npz`: `grid[3990, 0], grid[3990, 10], …, grid[3990, 5580]`. -/
def padGrid399 : Nat :=
  99999032050100060501100299999001049550019999900104954006048930060489400299999001048290019999900104828006047580060475900299999001046840019999900104683006046050060460600299999001045250019999900104524006044400060444100299999001043540019999900104353006042630060426400299999001041720019999900104171006040770060407800299999001039820019999900103981006037840069999900103785001999990010358000199999001035790060336600699999001033670019999900103147001999990010314600602919006999990010292000199999001026850019999900102684006024420069999900102443001999990010219400199999001021920020219100202193002019340020193200201933002999990010193500199999001016700019999900101668002016670020166900201398002013960020139700299999001013990019999900101121001999990010111900201118002011200020083500200833002008340029999900100836001999990010054500199999001005430020054200200544002002470020024500200246002999990010024800199999001053680019999900105366002053650020536700205664002056620020566300299999001056650019999900105956001999990010595400205953002059550020624000206238002062390029999900106241001999990010651900199999001065170020651600206518002067890020678700206788002999990010679000199999001070550019999900107053002070520020705400207313002073110020731200299999001073140019999900107563001999990010756200607804006999990010780500199999001080400019999900108039006082660069999900108267001999990010848700199999001084860060869900699999001087000019999900108905001999990010890400609101006999990010910200199999001091980020919700609291006999990010929200199999001093840020938300609473006999990010947400199999001095610020956000609644006999990010964500199999001097260020972500609803006999990010980400199999001098790020987800609948006999990010994900199999001100140021001300610074006999990011007500199999001101310021013000699999034

/-- `pad_grid.npz`: `grid[4000, 0], grid[4000, 10], …, grid[4000, 5580]`. -/
def padGrid400 : Nat :=
  99999032050100050501100399999001049550030495400504893005048940039999900104829003048280050475800504759003999990010468400304683005046050050460600399999001045250030452400504440005044410039999900104354003043530050426300504264003999990010417200304171005040770050407800399999001039820030398100503784005037850039999900103580003035790050336600503367003999990010314700303146005029190050292000399999001026850030268400502442005024430039999900102194003021920010219300401934004019330010193500399999001016700030166800101669004013980040139700101399003999990010112100301119001011200040083500400834001008360039999900100545003005430010054400400247004002460010024800399999001053680030536600105367004056640040566300105665003999990010595600305954001059550040624000406239001062410039999900106519003065170010651800406789004067880010679000399999001070550030705300107054004073130040731200107314003999990010756300307562005078040050780500399999001080400030803900508266005082670039999900108487003084860050869900508700003999990010890500308904005091010050910200399999001091980030919700509291005092920039999900109384003093830050947300509474003999990010956100309560005096440050964500399999001097260030972500509803005098040039999900109879003098780050994800509949003999990011001400310013005100740051007500399999001101310031013000599999034

/-- `pad_grid.npz`: `grid[4010, 0], grid[4010, 10], …, grid[4010, 5580]`. -/
def padGrid401 : Nat :=
  999990320501000305011005999990010495500504954003048930030489400599999001048290050482800304758003047590059999900104684005046830030460500304606005999990010452500504524003044400030444100599999001043540050435300304263003042640059999900104172005041710030407700304078005999990010398200503981003037840030378500599999001035800050357900303366003033670059999900103147005031460030291900302920005999990010268500502684003024420030244300599999001021940050219300301934003019370010193600199999001019350029999900101670002999990010167100101672001016690030139800301401001014000019999900101399002999990010112100299999001011220010112300101120003008350030083800100837001999990010083600299999001005450029999900100546001005470010054400300247003002500010024900199999001002480029999900105368002999990010536900105370001053670030566400305667001056660019999900105665002999990010595600299999001059570010595800105955003062400030624300106242001999990010624100299999001065190029999900106520001065210010651800306789003067920010679100199999001067900029999900107055002999990010705600107057001070540030731300307314005999990010756300507562003078040030780500599999001080400050803900308266003082670059999900108487005084860030869900308700005999990010890500508904003091010030910200599999001091980050919700309291003092920059999900109384005093830030947300309474005999990010956100509560003096440030964500599999001097260050972500309803003098040059999900109879005098780030994800309949005999990011001400510013003100740031007500599999001101310051013000399999034

/-- `pad_grid.npz`: `grid[4020, 0], grid[4020, 10], …, grid[4020, 5580]`. -/
def padGrid402 : Nat :=
  99999032050100010501100799999001049550070495400104893001048940079999900104829007048280010475800104759007999990010468400704683001046050010460600799999001045250070452400104440001044410079999900104354007043530010426300104264007999990010417200704171001040770010407800799999001039820070398100103784001037850079999900103580007035790010336600103367007999990010314700703146001029190010292000799999001026850070268400102442001024430079999900102194007021930010193400101937003019360030193500199999001016700010167100301672003016690010139800101401003014000030139900199999001011210010112200301123003011200010083500100838003008370030083600199999001005450010054600300547003005440010024700100250003002490030024800199999001053680010536900305370003053670010566400105667003056660030566500199999001059560010595700305958003059550010624000106243003062420030624100199999001065190010652000306521003065180010678900106792003067910030679000199999001070550010705600307057003070540010731300107314007999990010756300707562001078040010780500799999001080400070803900108266001082670079999900108487007084860010869900108700007999990010890500708904001091010010910200799999001091980070919700109291001092920079999900109384007093830010947300109474007999990010956100709560001096440010964500799999001097260070972500109803001098040079999900109879007098780010994800109949007999990011001400710013001100740011007500799999001101310071013000199999034

/-- `pad_grid.npz`: `grid[4030, 0], grid[4030, 10], …, grid[4030, 5580]`. -/
def padGrid403 : Nat :=
  9999903305011007999990010495500799999002048940079999900104829007999990020475900799999001046840079999900204606007999990010452500799999002044410079999900104354007999990020426400799999001041720079999900204078007999990010398200799999002037850079999900103580007999990020336700799999001031470079999900202920007999990010268500799999002024430079999900102194007999990020193700301936004999990010167100401672003999990020140100301400004999990010112200401123003999990020083800300837004999990010054600400547003999990020025000300249004999990010536900405370003999990020566700305666004999990010595700405958003999990020624300306242004999990010652000406521003999990020679200306791004999990010705600407057003999990020731400799999001075630079999900207805007999990010804000799999002082670079999900108487007999990020870000799999001089050079999900209102007999990010919800799999002092920079999900109384007999990020947400799999001095610079999900209645007999990010972600799999002098040079999900109879007999990020994900799999001100140079999900210075007999990011013100799999035

/-- `pad_grid.npz`: `grid[4040, 0], grid[4040, 10], …, grid[4040, 5580]`. -/
def padGrid404 : Nat :=
  99999032050120020501100699999001049550060495600204895002048940069999900104829006048300020476000204759006999990010468400604685002046070020460600699999001045250060452600204442002044410069999900104354006043550020426500204264006999990010417200604173002040790020407800699999001039820060398300203786002037850069999900103580006035810020336800203367006999990010314700603148002029210020292000699999001026850060268600202444002024430069999900102194006021950020193900201937002019360020193800299999001016730020167100201672002016740020140300201401002014000020140200299999001011240020112200201123002011250020084000200838002008370020083900299999001005480020054600200547002005490020025200200250002002490020025100299999001053710020536900205370002053720020566900205667002056660020566800299999001059590020595700205958002059600020624500206243002062420020624400299999001065220020652000206521002065230020679400206792002067910020679300299999001070580020705600207057002070590020731500207314006999990010756300607564002078060020780500699999001080400060804100208268002082670069999900108487006084880020870100208700006999990010890500608906002091030020910200699999001091980060919900209293002092920069999900109384006093850020947500209474006999990010956100609562002096460020964500699999001097260060972700209805002098040069999900109879006098800020995000209949006999990011001400610015002100760021007500699999001101310061013200299999034

/-- `pad_grid.npz`: `grid[4050, 0], grid[4050, 10], …, grid[4050, 5580]`. -/
def padGrid405 : Nat :=
  9999903205012004050110049999900104955004049560040489500404894004999990010482900404830004047600040475900499999001046840040468500404607004046060049999900104525004045260040444200404441004999990010435400404355004042650040426400499999001041720040417300404079004040780049999900103982004039830040378600403785004999990010358000403581004033680040336700499999001031470040314800402921004029200049999900102685004026860040244400402443004999990010219400402195004019390049999900101938003999990010167300399999001016740040140300499999001014020039999900101124003999990010112500400840004999990010083900399999001005480039999900100549004002520049999900100251003999990010537100399999001053720040566900499999001056680039999900105959003999990010596000406245004999990010624400399999001065220039999900106523004067940049999900106793003999990010705800399999001070590040731500407314004999990010756300407564004078060040780500499999001080400040804100408268004082670049999900108487004084880040870100408700004999990010890500408906004091030040910200499999001091980040919900409293004092920049999900109384004093850040947500409474004999990010956100409562004096460040964500499999001097260040972700409805004098040049999900109879004098800040995000409949004999990011001400410015004100760041007500499999001101310041013200499999034

/-- `pad_grid.npz`: `grid[4060, 0], grid[4060, 10], …, grid[4060, 5580]`. -/
def padGrid406 : Nat :=
  999990320501200605011002999990010495500204956006048950060489400299999001048290020483000604760006047590029999900104684002046850060460700604606002999990010452500204526006044420060444100299999001043540020435500604265006042640029999900104172002041730060407900604078002999990010398200203983006037860060378500299999001035800020358100603368006033670029999900103147002031480060292100602920002999990010268500202686006024440060244300299999001021940020219500601939006019380029999900101673002016760020167500101674003014030030140400101405002014020029999900101124002011270020112600101125003008400030084100100842002008390029999900100548002005510020055000100549003002520030025300100254002002510029999900105371002053740020537300105372003056690030567000105671002056680029999900105959002059620020596100105960003062450030624600106247002062440029999900106522002065250020652400106523003067940030679500106796002067930029999900107058002070590060731500607314002999990010756300207564006078060060780500299999001080400020804100608268006082670029999900108487002084880060870100608700002999990010890500208906006091030060910200299999001091980020919900609293006092920029999900109384002093850060947500609474002999990010956100209562006096460060964500299999001097260020972700609805006098040029999900109879002098800060995000609949002999990011001400210015006100760061007500299999001101310021013200699999034

/-- `pad_grid.npz`: `grid[4070, 0], grid[4070, 10], …, grid[4070, 5580]`. -/
def padGrid407 : Nat :=
  9999903205012007999990030495600704895007999990030483000704760007999990030468500704607007999990030452600704442007999990030435500704265007999990030417300704079007999990030398300703786007999990030358100703368007999990030314800702921007999990030268600702444007999990030219500701939007999990030167600301675003016740010140300101404003014050039999900301127003011260030112500100840001008410030084200399999003005510030055000300549001002520010025300300254003999990030537400305373003053720010566900105670003056710039999900305962003059610030596000106245001062460030624700399999003065250030652400306523001067940010679500306796003999990030705900707315007999990030756400707806007999990030804100708268007999990030848800708701007999990030890600709103007999990030919900709293007999990030938500709475007999990030956200709646007999990030972700709805007999990030988000709950007999990031001500710076007999990031013200799999034

/-- `pad_grid.npz`: `grid[4080, 0], grid[4080, 10], …, grid[4080, 5580]`. -/
def padGrid408 : Nat :=
  9999903205012008999990010495600804895008999990010483000804760008999990010468500804607008999990010452600804442008999990010435500804265008999990010417300804079008999990010398300803786008999990010358100803368008999990010314800802921008999990010268600802444008999990010219500801939008999990010167600401675003016770010140600101404003014050049999900101127004011260030112800100843001008410030084200499999001005510040055000300552001002550010025300300254004999990010537400405373003053750010567200105670003056710049999900105962004059610030596300106248001062460030624700499999001065250040652400306526001067970010679500306796004999990010705900807315008999990010756400807806008999990010804100808268008999990010848800808701008999990010890600809103008999990010919900809293008999990010938500809475008999990010956200809646008999990010972700809805008999990010988000809950008999990011001500810076008999990011013200899999034

/-- `pad_grid.npz`: `grid[4090, 0], grid[4090, 10], …, grid[4090, 5580]`. -/
def padGrid409 : Nat :=
  999990320501200699999003049570020495600604895006048960029999900104831002048300060476000604761002999990010468600204685006046070060460800299999001045270020452600604442006044430029999900104356002043550060426500604266002999990010417400204173006040790060408000299999001039840020398300603786006037870029999900103582002035810060336800603369002999990010314900203148006029210060292200299999001026870020268600602444006024450029999900102196002021950060193900601940002999990010167800201676002016750019999900101677002014060020140400201405002014070029999900101129002011270020112600199999001011280020084300200841002008420020084400299999001005530020055100200550001999990010055200200255002999990010025300100254002002560029999900105376002053740020537300199999001053750020567200299999001056700010567100205673002999990010596400205962002059610020596300206248002999990010624600106247002062490029999900106527002065250020652400206526002067970029999900106795001067960020679800299999001070600020705900607315006073160029999900107565002075640060780600607807002999990010804200208041006082680060826900299999001084890020848800608701006087020029999900108907002089060060910300609104002999990010920000209199006092930060929400299999001093860020938500609475006094760029999900109563002095620060964600609647002999990010972800209727006098050060980600299999001098810020988000609950006099510029999900110016002100150061007600610077002999990031013200699999034

/-- `pad_grid.npz`: `grid[4100, 0], grid[4100, 10], …, grid[4100, 5580]`. -/
def padGrid410 : Nat :=
  99999032050120049999900504957003999990010495600404895004048960049999900104831003999990010483000404760004047610049999900104686003999990010468500404607004046080049999900104527004045260040444200404443004999990010435600404355004042650040426600499999001041740040417300404079004040800049999900103984004039830040378600403787004999990010358200403581004033680040336900499999001031490040314800402921004029220049999900102687004026860040244400402445004999990010219600402195004019390040194000499999001016780040167700401406004014070049999900101129004011280040084300400844004999990010055300400552004002550040025600499999001053760040537500405672004056730049999900105964004059630040624800406249004999990010652700406526004067970040679800499999001070600040705900407315004073160049999900107565004075640040780600407807004999990010804200408041004082680040826900499999001084890040848800408701004087020049999900108907004089060040910300409104004999990010920000409199004092930040929400499999001093860040938500409475004094760049999900109563004095620040964600409647004999990010972800409727004098050049999900109806003999990010988100409880004099500049999900109951003999990011001600410015004100760049999900110077003999990051013200499999034

/-- `pad_grid.npz`: `grid[4110, 0], grid[4110, 10], …, grid[4110, 5580]`. -/
def padGrid411 : Nat :=
  9999903205012002999990070495700504956003048950029999900104896005999990010483100504830003047600030476100599999001046860050468500304607003046080059999900104527005045260030444200304443005999990010435600504355003042650030426600599999001041740050417300304079003040800059999900103984005039830030378600303787005999990010358200503581003033680030336900599999001031490050314800302921003029220059999900102687005026860030244400302445005999990010219600502195003019390030194000599999001016780050167700301406003014090010140800201407002999990010112900201130002011310010112800300843003008460010084500200844002999990010055300200554002005550010055200300255003002580010025700200256002999990010537600205377002053780010537500305672003056750010567400205673002999990010596400205965002059660010596300306248003062510010625000206249002999990010652700206528002065290010652600306797003067980059999900107060005070590030731500307316005999990010756500507564003078060030780700599999001080420050804100308268003082690059999900108489005084880030870100308702005999990010890700508906003091030030910400599999001092000050919900309293003092940059999900109386005093850030947500309476005999990010956300509562003096460030964700599999001097280050972700309805003098060059999900109881005098800030995000309951005999990011001600599999001100150021007600310077005999990071013200299999034

/-- `pad_grid.npz`: `grid[4120, 0], grid[4120, 10], …, grid[4120, 5580]`. -/
def padGrid412 : Nat :=
  9999903205012001999990080495700704956001048950010489600799999001048310070483000104760001047610079999900104686007046850010460700104608007999990010452700704526001044420010444300799999001043560070435500104265001042660079999900104174007041730010407900104080007999990010398400703983001037860010378700799999001035820070358100103368001033690079999900103149007031480010292100102922007999990010268700702686001024440010244500799999001021960070219500101939001019400079999900101678007016770010140600101409003014080039999900301130003011310030112800100843001008460030084500399999003005540030055500300552001002550010025800300257003999990030537700305378003053750010567200105675003056740039999900305965003059660030596300106248001062510030625000399999003065280030652900306526001067970010679800799999001070600070705900107315001073160079999900107565007075640010780600107807007999990010804200708041001082680010826900799999001084890070848800108701001087020079999900108907007089060010910300109104007999990010920000709199001092930010929400799999001093860070938500109475001094760079999900109563007095620010964600109647007999990010972800709727001098050010980600799999001098810070988000109950001099510079999900110016007100150011007600110077007999990081013200199999034

/-- `pad_grid.npz`: `grid[4130, 0], grid[4130, 10], …, grid[4130, 5580]`. -/
def padGrid413 : Nat :=
  99999041049570070495800104897001048960079999900104831007048320010476200104761007999990010468600704687001046090010460800799999001045270070452800104444001044430079999900104356007043570010426700104266007999990010417400704175001040810010408000799999001039840070398500103788001037870079999900103582007035830010337000103369007999990010314900703150001029230010292200799999001026870070268800102446001024450079999900102196007021970010194100101940007999990010167800701679001014110010140900301408004999990010113000401131003011330010084800100846003008450049999900100554004005550030055700100260001002580030025700499999001053770040537800305380001056770010567500305674004999990010596500405966003059680010625300106251003062500049999900106528004065290030653100106799001067980079999900107060007070610010731700107316007999990010756500707566001078080010780700799999001080420070804300108270001082690079999900108489007084900010870300108702007999990010890700708908001091050010910400799999001092000070920100109295001092940079999900109386007093870010947700109476007999990010956300709564001096480010964700799999001097280070972900109807001098060079999900109881007098820010995200109951007999990011001600710017001100780011007700799999043

/-- `pad_grid.npz`: `grid[4140, 0], grid[4140, 10], …, grid[4140, 5580]`. -/
def padGrid414 : Nat :=
  99999041049570059999900104958002048970029999900104896005999990010483100599999001048320020476200299999001047610059999900104686005999990010468700204609002999990010460800599999001045270059999900104528002044440029999900104443005999990010435600599999001043570020426700299999001042660059999900104174005999990010417500204081002999990010408000599999001039840059999900103985002037880029999900103787005999990010358200599999001035830020337000299999001033690059999900103149005999990010315000202923002999990010292200599999001026870059999900102688002024460029999900102445005999990010219600599999001021970020194100299999001019400059999900101678005999990010167900201411002999990010140900101408002014100029999900101132002011300020113100199999001011330020084800299999001008460010084500200847002999990010055600200554002005550019999900100557002002600029999900100258001002570020025900299999001053790020537700205378001999990010538000205677002999990010567500105674002056760029999900105967002059650020596600199999001059680020625300299999001062510010625000206252002999990010653000206528002065290019999900106531002067990029999900106798005999990010706000599999001070610020731700299999001073160059999900107565005999990010756600207808002999990010780700599999001080420059999900108043002082700029999900108269005999990010848900599999001084900020870300299999001087020059999900108907005999990010890800209105002999990010910400599999001092000059999900109201002092950029999900109294005999990010938600599999001093870020947700299999001094760059999900109563005999990010956400209648002999990010964700599999001097280059999900109729002098070029999900109806005999990010988100599999001098820020995200299999001099510059999900110016005999990011001700210078002999990011007700599999043

/-- `pad_grid.npz`: `grid[4150, 0], grid[4150, 10], …, grid[4150, 5580]`. -/
def padGrid415 : Nat :=
  999990410495700404958004048970040489600499999001048310040483200404762004047610049999900104686004046870040460900404608004999990010452700404528004044440040444300499999001043560040435700404267004042660049999900104174004041750040408100404080004999990010398400403985004037880040378700499999001035820040358300403370004033690049999900103149004031500040292300402922004999990010268700402688004024460040244500499999001021960040219700401941004019400049999900101678004016790040141100401410004999990010113200401133004008480040084700499999001005560040055700400260004002590049999900105379004053800040567700405676004999990010596700405968004062530040625200499999001065300040653100406799004067980049999900107060004070610040731700407316004999990010756500407566004078080040780700499999001080420040804300408270004082690049999900108489004084900040870300408702004999990010890700408908004091050040910400499999001092000040920100409295004092940049999900109386004093870040947700409476004999990010956300409564004096480040964700499999001097280040972900409807004098060049999900109881004098820040995200409951004999990011001600410017004100780041007700499999043

/-- `pad_grid.npz`: `grid[4160, 0], grid[4160, 10], …, grid[4160, 5580]`. -/
def padGrid416 : Nat :=
  999990410495700204958006048970060489600299999001048310020483200604762006047610029999900104686002046870060460900604608002999990010452700204528006044440060444300299999001043560020435700604267006042660029999900104174002041750060408100604080002999990010398400203985006037880060378700299999001035820020358300603370006033690029999900103149002031500060292300602922002999990010268700202688006024460060244500299999001021960020219700601941006019400029999900101678002016790060141100601410002999990010113200201135002011340019999900101133002008480029999900100849001008500020084700299999001005560020055900200558001999990010055700200260002999990010026100100262002002590029999900105379002053820020538100199999001053800020567700299999001056780010567900205676002999990010596700205970002059690019999900105968002062530029999900106254001062550020625200299999001065300020653100606799006067980029999900107060002070610060731700607316002999990010756500207566006078080060780700299999001080420020804300608270006082690029999900108489002084900060870300608702002999990010890700208908006091050060910400299999001092000020920100609295006092940029999900109386002093870060947700609476002999990010956300209564006096480060964700299999001097280020972900609807006098060029999900109881002098820060995200609951002999990011001600210017006100780061007700299999043

/-- `pad_grid.npz`: `grid[4170, 0], grid[4170, 10], …, grid[4170, 5580]`. -/
def padGrid417 : Nat :=
  9999904104958008048970089999900104832008047620089999900104687008046090089999900104528008044440089999900104357008042670089999900104175008040810089999900103985008037880089999900103583008033700089999900103150008029230089999900102688008024460089999900102197008019410089999900101679008014110089999900101135004011340030113300100848001008490030085000499999001005590040055800300557001002600010026100300262004999990010538200405381003053800010567700105678003056790049999900105970004059690030596800106253001062540030625500499999001065310080679900899999001070610080731700899999001075660080780800899999001080430080827000899999001084900080870300899999001089080080910500899999001092010080929500899999001093870080947700899999001095640080964800899999001097290080980700899999001098820080995200899999001100170081007800899999043

/-- `pad_grid.npz`: `grid[4180, 0], grid[4180, 10], …, grid[4180, 5580]`. -/
def padGrid418 : Nat :=
  9999904204958007048970079999900304832007047620079999900304687007046090079999900304528007044440079999900304357007042670079999900304175007040810079999900303985007037880079999900303583007033700079999900303150007029230079999900302688007024460079999900302197007019410079999900301679007014110079999900301135003011340030113600100851001008490030085000399999003005590030055800300560001002630010026100300262003999990030538200305381003053830010568000105678003056790039999900305970003059690030597100106256001062540030625500399999003065310070679900799999003070610070731700799999003075660070780800799999003080430070827000799999003084900070870300799999003089080070910500799999003092010070929500799999003093870070947700799999003095640070964800799999003097290070980700799999003098820070995200799999003100170071007800799999044

/-- `pad_grid.npz`: `grid[4190, 0], grid[4190, 10], …, grid[4190, 5580]`. -/
def padGrid419 : Nat :=
  99999041049590020495800604897006048980029999900104833002048320060476200604763002999990010468800204687006046090060461000299999001045290020452800604444006044450029999900104358002043570060426700604268002999990010417600204175006040810060408200299999001039860020398500603788006037890029999900103584002035830060337000603371002999990010315100203150006029230060292400299999001026890020268800602446006024470029999900102198002021970060194100601942002999990010168000201679006014110060141200299999001011370020113500201134001011360030085100300849001008500020085200299999001005610020055900200558001005600030026300300261001002620020026400299999001053840020538200205381001053830030568000305678001056790020568100299999001059720020597000205969001059710030625600306254001062550020625700299999001065320020653100606799006068000029999900107062002070610060731700607318002999990010756700207566006078080060780900299999001080440020804300608270006082710029999900108491002084900060870300608704002999990010890900208908006091050060910600299999001092020020920100609295006092960029999900109388002093870060947700609478002999990010956500209564006096480060964900299999001097300020972900609807006098080029999900109883002098820060995200609953002999990011001800210017006100780061007900299999043

/-- `pad_grid.npz`: `grid[4200, 0], grid[4200, 10], …, grid[4200, 5580]`. -/
def padGrid420 : Nat :=
  999990410495900404958004048970040489800499999001048330040483200404762004047630049999900104688004046870040460900404610004999990010452900404528004044440040444500499999001043580040435700404267004042680049999900104176004041750040408100404082004999990010398600403985004037880040378900499999001035840040358300403370004033710049999900103151004031500040292300402924004999990010268900402688004024460040244700499999001021980040219700401941004019420049999900101680004016790040141100401412004999990010113700401136004008510049999900100852003999990010056100399999001005600040026300499999001002640039999900105384003999990010538300405680004999990010568100399999001059720039999900105971004062560040625700499999001065320040653100406799004068000049999900107062004070610040731700407318004999990010756700407566004078080040780900499999001080440040804300408270004082710049999900108491004084900040870300408704004999990010890900408908004091050040910600499999001092020040920100409295004092960049999900109388004093870040947700409478004999990010956500409564004096480040964900499999001097300040972900409807004098080049999900109883004098820040995200409953004999990011001800410017004100780041007900499999043

/-- `pad_grid.npz`: `grid[4210, 0], grid[4210, 10], …, grid[4210, 5580]`. -/
def padGrid421 : Nat :=
  999990410495900604958002048970020489800699999001048330060483200204762002047630069999900104688006046870020460900204610006999990010452900604528002044440020444500699999001043580060435700204267002042680069999900104176006041750020408100204082006999990010398600603985002037880020378900699999001035840060358300203370002033710069999900103151006031500020292300202924006999990010268900602688002024460020244700699999001021980060219700201941002019420069999900101680006016790020141100201412006999990010113700601136002008510020085400200853002008520029999900100561002005620020056300200560002002630020026600200265002002640029999900105384002053850020538600205383002056800020568300205682002056810029999900105972002059730020597400205971002062560020625700699999001065320060653100206799002068000069999900107062006070610020731700207318006999990010756700607566002078080020780900699999001080440060804300208270002082710069999900108491006084900020870300208704006999990010890900608908002091050020910600699999001092020060920100209295002092960069999900109388006093870020947700209478006999990010956500609564002096480020964900699999001097300060972900209807002098080069999900109883006098820020995200209953006999990011001800610017002100780021007900699999043

/-- `pad_grid.npz`: `grid[4220, 0], grid[4220, 10], …, grid[4220, 5580]`. -/
def padGrid422 : Nat :=
  999990410495900704958001999990010489800799999001048330070483200199999001047630079999900104688007046870019999900104610007999990010452900704528001999990010444500799999001043580070435700199999001042680079999900104176007041750019999900104082007999990010398600703985001999990010378900799999001035840070358300199999001033710079999900103151007999990020292400799999001026890079999900202447007999990010219800799999002019420079999900101680007999990020141200799999001011370079999900200854003008530049999900100562004005630039999900200266003002650049999900105385004053860039999900205683003056820049999900105973004059740039999900206257007999990010653200799999002068000079999900107062007999990020731800799999001075670079999900207809007999990010804400799999002082710079999900108491007999990010870300108704007999990010890900799999001091050010910600799999001092020079999900109295001092960079999900109388007999990010947700109478007999990010956500799999001096480010964900799999001097300079999900109807001098080079999900109883007999990010995200109953007999990011001800799999001100780011007900799999043

/-- `pad_grid.npz`: `grid[4230, 0], grid[4230, 10], …, grid[4230, 5580]`. -/
def padGrid423 : Nat :=
  999990410495900799999001048990010489800799999001048330070483400104764001047630079999900104688007046890010461100104610007999990010452900704530001044460010444500799999001043580070435900104269001042680079999900104176007041770010408300104082007999990010398600703987001037900010378900799999001035840070358500103372001033710079999900103151007031520010292500102924007999990010268900702690001024480010244700799999001021980070219900101943001019420079999900101680007016810010141300101412007999990010113700701138001008560010085400300853003008550019999900100564001005620030056300300565001002680010026600300265003002670019999900105387001053850030538600305388001056850010568300305682003056840019999900105975001059730030597400305976001062580010625700799999001065320070653300106801001068000079999900107062007070630010731900107318007999990010756700707568001078100010780900799999001080440070804500108272001082710079999900108491007084920010870500108704007999990010890900708910001091070010910600799999001092020070920300109297001092960079999900109388007093890010947900109478007999990010956500709566001096500010964900799999001097300070973100109809001098080079999900109883007098840010995400109953007999990011001800710019001999990011007900799999043

/-- `pad_grid.npz`: `grid[4240, 0], grid[4240, 10], …, grid[4240, 5580]`. -/
def padGrid424 : Nat :=
  999990410495900599999003048990030489800599999001048330050483400304764003047630059999900104688005046890030461100304610005999990010452900504530003044460030444500599999001043580050435900304269003042680059999900104176005041770030408300304082005999990010398600503987003037900030378900599999001035840050358500303372003033710059999900103151005031520030292500302924005999990010268900502690003024480030244700599999001021980050219900301943003019420059999900101680005016810030141300301412005999990010113700501138003008560030085400100853002008550029999900100564002005620020056300100565003002680030026600100265002002670029999900105387002053850020538600105388003056850030568300105682002056840029999900105975002059730020597400105976003062580030625700599999001065320050653300306801003068000059999900107062005070630030731900307318005999990010756700507568003078100030780900599999001080440050804500308272003082710059999900108491005084920030870500308704005999990010890900508910003091070030910600599999001092020050920300309297003092960059999900109388005093890030947900309478005999990010956500509566003096500030964900599999001097300050973100309809003098080059999900109883005098840030995400309953005999990011001800510019003999990031007900599999043

/-- `pad_grid.npz`: `grid[4250, 0], grid[4250, 10], …, grid[4250, 5580]`. -/
def padGrid425 : Nat :=
  9999904104959003999990050489900499999001048980039999900104833003048340050476400499999001047630039999900104688003046890050461100499999001046100039999900104529003045300050444600499999001044450039999900104358003043590050426900499999001042680039999900104176003041770050408300499999001040820039999900103986003039870050379000499999001037890039999900103584003035850050337200499999001033710039999900103151003031520050292500499999001029240039999900102689003026900050244800499999001024470039999900102198003021990050194300499999001019420039999900101680003016810050141300501412003999990010113700301138005008560050085500399999001005640030056700100565004002680040027000100267003999990010538700305390001053880040568500405687001056840039999900105975003059760050625800506257003999990010653200306533005068010050680000399999001070620039999900107063004073190050731800399999001075670039999900107568004078100050780900399999001080440039999900108045004082720050827100399999001084910039999900108492004087050050870400399999001089090039999900108910004091070050910600399999001092020039999900109203004092970050929600399999001093880039999900109389004094790050947800399999001095650039999900109566004096500050964900399999001097300039999900109731004098090050980800399999001098830039999900109884004099540050995300399999001100180039999900110019004999990051007900399999043

/-- `pad_grid.npz`: `grid[4260, 0], grid[4260, 10], …, grid[4260, 5580]`. -/
def padGrid426 : Nat :=
  9999904104959002999990060489900604898002999990010483300204834006047640060476300299999001046880020468900604611006046100029999900104529002045300060444600604445002999990010435800204359006042690060426800299999001041760020417700604083006040820029999900103986002039870060379000603789002999990010358400203585006033720060337100299999001031510020315200602925006029240029999900102689002026900060244800602447002999990010219800202199006019430060194200299999001016800020168100601413006014120029999900101137002011380060085600600855002999990010056400200567002005660020056500200268002002690020027000200267002999990010538700205390002053890020538800205685002056860020568700205684002999990010597500205976006062580060625700299999001065320020653300606801006068000029999900107062002070630060731900607318002999990010756700207568006078100060780900299999001080440020804500608272006082710029999900108491002084920060870500608704002999990010890900208910006091070060910600299999001092020020920300609297006092960029999900109388002093890060947900609478002999990010956500209566006096500060964900299999001097300020973100609809006098080029999900109883002098840060995400609953002999990011001800210019006999990061007900299999043

/-- `pad_grid.npz`: `grid[4270, 0], grid[4270, 10], …, grid[4270, 5580]`. -/
def padGrid427 : Nat :=
  9999904904899008999990010483400804764008999990010468900804611008999990010453000804446008999990010435900804269008999990010417700804083008999990010398700803790008999990010358500803372008999990010315200802925008999990010269000802448008999990010219900801943008999990010168100801413008999990010113800800856008999990010056700400566003999990020026900300270004999990010539000405389003999990020568600305687004999990010597600806258008999990010653300806801008999990010706300807319008999990010756800807810008999990010804500808272008999990010849200808705008999990010891000809107008999990010920300809297008999990010938900809479008999990010956600809650008999990010973100809809008999990010988400809954008999990011001900899999051

/-- `pad_grid.npz`: `grid[4280, 0], grid[4280, 10], …, grid[4280, 5580]`. -/
def padGrid428 : Nat :=
  99999049048990070490000199999001048350010483400704764007047650019999900104690001046890070461100704612001999990010453100104530007044460070444700199999001043600010435900704269007042700019999900104178001041770070408300704084001999990010398800103987007037900070379100199999001035860010358500703372007033730019999900103153001031520070292500702926001999990010269100102690007024480070244900199999001022000010219900701943007019440019999900101682001016810070141300701414001999990010113900101138007008560070085700199999001005690010056700300566003005680010027100100269003002700030027200199999001053920010539000305389003053910010568800105686003056870030568900199999001059770010597600706258007062590019999900106534001065330070680100706802001999990010706400107063007073190070732000199999001075690010756800707810007078110019999900108046001080450070827200708273001999990010849300108492007087050070870600199999001089110010891000709107007091080019999900109204001092030070929700709298001999990010939000109389007094790070948000199999001095670010956600709650007096510019999900109732001097310070980900709810001999990010988500109884007099540070995500199999001100200011001900799999051

/-- `pad_grid.npz`: `grid[4290, 0], grid[4290, 10], …, grid[4290, 5580]`. -/
def padGrid429 : Nat :=
  99999049048990059999900104900002999990010483500299999001048340050476400599999001047650029999900104690002999990010468900504611005999990010461200299999001045310029999900104530005044460059999900104447002999990010436000299999001043590050426900599999001042700029999900104178002999990010417700504083005999990010408400299999001039880029999900103987005037900059999900103791002999990010358600299999001035850050337200599999001033730029999900103153002999990010315200502925005999990010292600299999001026910029999900102690005024480059999900102449002999990010220000299999001021990050194300599999001019440029999900101682002999990010168100501413005999990010141400299999001011390029999900101138005008560059999900100857002999990010056900299999001005670010056600100568003002710030026900100270001999990010027200299999001053920029999900105390001053890010539100305688003056860010568700199999001056890029999900105977002999990010597600506258005999990010625900299999001065340029999900106533005068010059999900106802002999990010706400299999001070630050731900599999001073200029999900107569002999990010756800507810005999990010781100299999001080460029999900108045005082720059999900108273002999990010849300299999001084920050870500599999001087060029999900108911002999990010891000509107005999990010910800299999001092040029999900109203005092970059999900109298002999990010939000299999001093890050947900599999001094800029999900109567002999990010956600509650005999990010965100299999001097320029999900109731005098090059999900109810002999990010988500299999001098840050995400599999001099550029999900110020002999990011001900599999051

/-- `pad_grid.npz`: `grid[4300, 0], grid[4300, 10], …, grid[4300, 5580]`. -/
def padGrid430 : Nat :=
  99999049048990040490000499999001048350040483400404764004047650049999900104690004046890040461100404612004999990010453100404530004044460040444700499999001043600040435900404269004042700049999900104178004041770040408300404084004999990010398800403987004037900040379100499999001035860040358500403372004033730049999900103153004031520040292500402926004999990010269100402690004024480040244900499999001022000040219900401943004019440049999900101682004016810040141300401414004999990010113900401138004008560040085700499999001005690040056800400271004002730010027200399999001053920030539300105391004056880040568900499999001059770040597600406258004062590049999900106534004065330040680100406802004999990010706400407063004073190040732000499999001075690040756800407810004078110049999900108046004080450040827200408273004999990010849300408492004087050040870600499999001089110040891000409107004091080049999900109204004092030040929700409298004999990010939000409389004094790040948000499999001095670040956600409650004096510049999900109732004097310040980900409810004999990010988500409884004099540040995500499999001100200041001900499999051

/-- `pad_grid.npz`: `grid[4310, 0], grid[4310, 10], …, grid[4310, 5580]`. -/
def padGrid431 : Nat :=
  9999904904899002049000069999900104835006048340020476400204765006999990010469000604689002046110020461200699999001045310060453000204446002044470069999900104360006043590020426900204270006999990010417800604177002040830020408400699999001039880060398700203790002037910069999900103586006035850020337200203373006999990010315300603152002029250020292600699999001026910060269000202448002024490069999900102200006021990020194300201944006999990010168200601681002014130020141400699999001011390060113800200856002008570069999900100569006005680020027100200274002002730029999900100272001999990010539200199999001053930020539400205391002056880020568900699999001059770060597600206258002062590069999900106534006065330020680100206802006999990010706400607063002073190020732000699999001075690060756800207810002078110069999900108046006080450020827200208273006999990010849300608492002087050020870600699999001089110060891000209107002091080069999900109204006092030020929700209298006999990010939000609389002094790020948000699999001095670060956600209650002096510069999900109732006097310020980900209810006999990010988500609884002099540020995500699999001100200061001900299999051

/-- `pad_grid.npz`: `grid[4320, 0], grid[4320, 10], …, grid[4320, 5580]`. -/
def padGrid432 : Nat :=
  99999049049000089999900104835008047650089999900104690008046120089999900104531008044470089999900104360008042700089999900104178008040840089999900103988008037910089999900103586008033730089999900103153008029260089999900102691008024490089999900102200008019440089999900101682008014140089999900101139008008570089999900100569008002740040027300499999001053930040539400405689008999990010597700806259008999990010653400806802008999990010706400807320008999990010756900807811008999990010804600808273008999990010849300808706008999990010891100809108008999990010920400809298008999990010939000809480008999990010956700809651008999990010973200809810008999990010988500809955008999990011002000899999051

/-- `pad_grid.npz`: `grid[4330, 0], grid[4330, 10], …, grid[4330, 5580]`. -/
def padGrid433 : Nat :=
  9999905104900006999990010483500699999001048360010476600199999001047650069999900104690006999990010469100104613001999990010461200699999001045310069999900104532001044480019999900104447006999990010436000699999001043610010427100199999001042700069999900104178006999990010417900104085001999990010408400699999001039880069999900103989001037920019999900103791006999990010358600699999001035870010337400199999001033730069999900103153006999990010315400102927001999990010292600699999001026910069999900102692001024500019999900102449006999990010220000699999001022010010194500199999001019440069999900101682006999990010168300101415001999990010141400699999001011390069999900101140001008580019999900100857006999990010056900699999001005700010027600199999001002740020027300300275001999990010539500105393003053940029999900105396001056900019999900105689006999990010597700699999001059780010626000199999001062590069999900106534006999990010653500106803001999990010680200699999001070640069999900107065001073210019999900107320006999990010756900699999001075700010781200199999001078110069999900108046006999990010804700108274001999990010827300699999001084930069999900108494001087070019999900108706006999990010891100699999001089120010910900199999001091080069999900109204006999990010920500109299001999990010929800699999001093900069999900109391001094810019999900109480006999990010956700699999001095680010965200199999001096510069999900109732006999990010973300109811001999990010981000699999001098850069999900109886001099560019999900109955006999990011002000699999053

/-- `pad_grid.npz`: `grid[4340, 0], grid[4340, 10], …, grid[4340, 5580]`. -/
def padGrid434 : Nat :=
  99999052049000059999900104835005048360030476600304765005999990010469000504691003046130030461200599999001045310050453200304448003044470059999900104360005043610030427100304270005999990010417800504179003040850030408400599999001039880050398900303792003037910059999900103586005035870030337400303373005999990010315300503154003029270030292600599999001026910050269200302450003024490059999900102200005022010030194500301944005999990010168200501683003014150030141400599999001011390050114000300858003008570059999900100569005005700030027600300274001002730010027500399999001053950030539300105394001053960030569000305689005999990010597700505978003062600030625900599999001065340050653500306803003068020059999900107064005070650030732100307320005999990010756900507570003078120030781100599999001080460050804700308274003082730059999900108493005084940030870700308706005999990010891100508912003091090030910800599999001092040050920500309299003092980059999900109390005093910030948100309480005999990010956700509568003096520030965100599999001097320050973300309811003098100059999900109885005098860030995600309955005999990011002000599999054

/-- `pad_grid.npz`: `grid[4350, 0], grid[4350, 10], …, grid[4350, 5580]`. -/
def padGrid435 : Nat :=
  999990540490000399999001048350030483600504766005047650039999900104690003046910050461300504612003999990010453100304532005044480050444700399999001043600030436100504271005042700039999900104178003041790050408500504084003999990010398800303989005037920050379100399999001035860030358700503374005033730039999900103153003031540050292700502926003999990010269100302692005024500050244900399999001022000030220100501945005019440039999900101682003016830050141500501414003999990010113900301140005008580050085700399999001005690030057000500276005002750039999900105395003053960050569000505689003999990010597700305978005062600050625900399999001065340030653500506803005068020039999900107064003070650050732100507320003999990010756900307570005078120050781100399999001080460030804700508274005082730039999900108493003084940050870700508706003999990010891100308912005091090050910800399999001092040030920500509299005092980039999900109390003093910050948100509480003999990010956700309568005096520050965100399999001097320030973300509811005098100039999900109885003098860050995600509955003999990011002000399999056

/-- `pad_grid.npz`: `grid[4360, 0], grid[4360, 10], …, grid[4360, 5580]`. -/
def padGrid436 : Nat :=
  999990560490000199999001048350010483600704766007047650019999900104690001046910070461300704612001999990010453100104532007044480070444700199999001043600010436100704271007042700019999900104178001041790070408500704084001999990010398800103989007037920070379100199999001035860010358700703374007033730019999900103153001031540070292700702926001999990010269100102692007024500070244900199999001022000010220100701945007019440019999900101682001016830070141500701414001999990010113900101140007008580070085700199999001005690010057000700276007002750019999900105395001053960070569000705689001999990010597700105978007062600070625900199999001065340010653500706803007068020019999900107064001070650070732100707320001999990010756900107570007078120070781100199999001080460010804700708274007082730019999900108493001084940070870700708706001999990010891100108912007091090070910800199999001092040010920500709299007092980019999900109390001093910070948100709480001999990010956700109568007096520070965100199999001097320010973300709811007098100019999900109885001098860070995600709955001999990011002000199999058

/-- `pad_grid.npz`: `grid[4370, 0], grid[4370, 10], …, grid[4370, 5580]`. -/
def padGrid437 : Nat :=
  99999058048360080476600899999001046910080461300899999001045320080444800899999001043610080427100899999001041790080408500899999001039890080379200899999001035870080337400899999001031540080292700899999001026920080245000899999001022010080194500899999001016830080141500899999001011400080085800899999001005700080027600899999001053960080569000899999001059780080626000899999001065350080680300899999001070650080732100899999001075700080781200899999001080470080827400899999001084940080870700899999001089120080910900899999001092050080929900899999001093910080948100899999001095680080965200899999001097330080981100899999001098860080995600899999060

/-- `pad_grid.npz`: `grid[4380, 0], grid[4380, 10], …, grid[4380, 5580]`. -/
def padGrid438 : Nat :=
  9999905804837001048360070476600704767001999990010469200104691007046130070461400199999001045330010453200704448007044490019999900104362001043610070427100704272001999990010418000104179007040850070408600199999001039900010398900703792007037930019999900103588001035870070337400703375001999990010315500103154007029270070292800199999001026930010269200702450007024510019999900102202001022010070194500701946001999990010168400101683007014150070141600199999001011410010114000700858007008590019999900100571001005700070027600700277001999990010539700105396007056900070569100199999001059790010597800706260007062610019999900106536001065350070680300706804001999990010706600107065007073210070732200199999001075710010757000707812007078130019999900108048001080470070827400708275001999990010849500108494007087070070870800199999001089130010891200709109007091100019999900109206001092050070929900709300001999990010939200109391007094810070948200199999001095690010956800709652007096530019999900109734001097330070981100709812001999990010988700109886007099560070995700199999060

/-- `pad_grid.npz`: `grid[4390, 0], grid[4390, 10], …, grid[4390, 5580]`. -/
def padGrid439 : Nat :=
  9999905804837003048360050476600504767003999990010469200304691005046130050461400399999001045330030453200504448005044490039999900104362003043610050427100504272003999990010418000304179005040850050408600399999001039900030398900503792005037930039999900103588003035870050337400503375003999990010315500303154005029270050292800399999001026930030269200502450005024510039999900102202003022010050194500501946003999990010168400301683005014150050141600399999001011410030114000500858005008590039999900100571003005700050027600500277003999990010539700305396005056900050569100399999001059790030597800506260005062610039999900106536003065350050680300506804003999990010706600307065005073210050732200399999001075710030757000507812005078130039999900108048003080470050827400508275003999990010849500308494005087070050870800399999001089130030891200509109005091100039999900109206003092050050929900509300003999990010939200309391005094810050948200399999001095690030956800509652005096530039999900109734003097330050981100509812003999990010988700309886005099560050995700399999060

/-- `pad_grid.npz`: `grid[4400, 0], grid[4400, 10], …, grid[4400, 5580]`. -/
def padGrid440 : Nat :=
  99999058048370049999900104836003047660030476700599999001046920049999900104691003046130030461400599999001045330049999900104532003044480030444900599999001043620049999900104361003042710030427200599999001041800049999900104179003040850030408600599999001039900049999900103989003037920030379300599999001035880049999900103587003033740030337500599999001031550049999900103154003029270039999900102928004999990010269300499999001026920030245000399999001024510049999900102202004999990010220100301945003999990010194600499999001016840049999900101683003014150039999900101416004999990010114100499999001011400030085800399999001008590049999900100571004999990010057000300276003999990010027700499999001053970049999900105396003056900039999900105691004999990010597900499999001059780030626000399999001062610049999900106536004999990010653500306803003999990010680400499999001070660049999900107065003073210039999900107322004999990010757100499999001075700030781200399999001078130049999900108048004999990010804700308274003999990010827500499999001084950050849400308707003999990010870800499999001089130050891200309109003999990010911000499999001092060050920500309299003999990010930000499999001093920050939100309481003999990010948200499999001095690050956800309652003999990010965300499999001097340050973300309811003999990010981200499999001098870050988600309956003999990010995700499999060

/-- `pad_grid.npz`: `grid[4410, 0], grid[4410, 10], …, grid[4410, 5580]`. -/
def padGrid441 : Nat :=
  9999905804837006048360020476600204767006999990010469200604691002046130020461400699999001045330060453200204448002044490069999900104362006043610020427100204272006999990010418000604179002040850020408600699999001039900060398900203792002037930069999900103588006035870020337400203375006999990010315500603154002029270020292800699999001026930060269200202450002024510069999900102202006022010020194500201946006999990010168400601683002014150020141600699999001011410060114000200858002008590069999900100571006005700020027600200277006999990010539700605396002056900020569100699999001059790060597800206260002062610069999900106536006065350020680300206804006999990010706600607065002073210020732200699999001075710060757000207812002078130069999900108048006080470020827400208275006999990010849500608494002087070020870800699999001089130060891200209109002091100069999900109206006092050020929900209300006999990010939200609391002094810020948200699999001095690060956800209652002096530069999900109734006097330020981100209812006999990010988700609886002099560020995700699999060

/-- `pad_grid.npz`: `grid[4420, 0], grid[4420, 10], …, grid[4420, 5580]`. -/
def padGrid442 : Nat :=
  99999058048370080476700899999001046920080461400899999001045330080444900899999001043620080427200899999001041800080408600899999001039900080379300899999001035880080337500899999001031550080292800899999001026930080245100899999001022020080194600899999001016840080141600899999001011410080085900899999001005710080027700899999001053970080569100899999001059790080626100899999001065360080680400899999001070660080732200899999001075710080781300899999001080480080827500899999001084950080870800899999001089130080911000899999001092060080930000899999001093920080948200899999001095690080965300899999001097340080981200899999001098870080995700899999060

/-- `pad_grid.npz`: `grid[4430, 0], grid[4430, 10], …, grid[4430, 5580]`. -/
def padGrid443 : Nat :=
  9999905804837006999990020476800204767006999990010469200604693002046150020461400699999001045330060453400204450002044490069999900104362006043630020427300204272006999990010418000604181002040870020408600699999001039900060399100203794002037930069999900103588006035890020337600203375006999990010315500603156002029290020292800699999001026930060269400202452002024510069999900102202006022030020194700201946006999990010168400601685002014170020141600699999001011410060114200200860002008590069999900100571006005720020027800200277006999990010539700605398002056920020569100699999001059790060598000206262002062610069999900106536006065370020680500206804006999990010706600607067002073230020732200699999001075710060757200207814002078130069999900108048006080490020827600208275006999990010849500608496002087090020870800699999001089130060891400209111002091100069999900109206006092070020930100209300006999990010939200609393002094830020948200699999001095690060957000209654002096530069999900109734006097350020981300209812006999990010988700609888002999990020995700699999060

/-- `pad_grid.npz`: `grid[4440, 0], grid[4440, 10], …, grid[4440, 5580]`. -/
def padGrid444 : Nat :=
  99999058048370049999900404768003999990010476700499999001046920049999900104693003046150039999900104614004999990010453300499999001045340030445000399999001044490049999900104362004999990010436300304273003999990010427200499999001041800049999900104181003040870039999900104086004999990010399000499999001039910030379400399999001037930049999900103588004999990010358900303376003999990010337500499999001031550049999900103156003029290039999900102928004999990010269300499999001026940030245200399999001024510049999900102202004999990010220300301947003999990010194600499999001016840049999900101685003014170039999900101416004999990010114100499999001011420030086000399999001008590049999900100571004999990010057200300278003999990010027700499999001053970049999900105398003056920039999900105691004999990010597900499999001059800030626200399999001062610049999900106536004999990010653700306805003999990010680400499999001070660049999900107067003073230039999900107322004999990010757100499999001075720030781400399999001078130049999900108048004999990010804900308276003999990010827500499999001084950049999900108496003087090039999900108708004999990010891300499999001089140030911100399999001091100049999900109206004999990010920700309301003999990010930000499999001093920049999900109393003094830039999900109482004999990010956900499999001095700030965400399999001096530049999900109734004999990010973500309813003999990010981200499999001098870049999900109888003999990040995700499999060

/-- `pad_grid.npz`: `grid[4450, 0], grid[4450, 10], …, grid[4450, 5580]`. -/
def padGrid445 : Nat :=
  9999905804837003999990050476800504767003999990010469200304693005046150050461400399999001045330030453400504450005044490039999900104362003043630050427300504272003999990010418000304181005040870050408600399999001039900030399100503794005037930039999900103588003035890050337600503375003999990010315500303156005029290050292800399999001026930030269400502452005024510039999900102202003022030050194700501946003999990010168400301685005014170050141600399999001011410030114200500860005008590039999900100571003005720050027800500277003999990010539700305398005056920050569100399999001059790030598000506262005062610039999900106536003065370050680500506804003999990010706600307067005073230050732200399999001075710030757200507814005078130039999900108048003080490050827600508275003999990010849500308496005087090050870800399999001089130030891400509111005091100039999900109206003092070050930100509300003999990010939200309393005094830050948200399999001095690030957000509654005096530039999900109734003097350050981300509812003999990010988700309888005999990050995700399999060

/-- `pad_grid.npz`: `grid[4460, 0], grid[4460, 10], …, grid[4460, 5580]`. -/
def padGrid446 : Nat :=
  9999905804837001999990070476800704767001999990010469200104693007046150070461400199999001045330010453400704450007044490019999900104362001043630070427300704272001999990010418000104181007040870070408600199999001039900010399100703794007037930019999900103588001035890070337600703375001999990010315500103156007029290070292800199999001026930010269400702452007024510019999900102202001022030070194700701946001999990010168400101685007014170070141600199999001011410010114200700860007008590019999900100571001005720070027800700277001999990010539700105398007056920070569100199999001059790010598000706262007062610019999900106536001065370070680500706804001999990010706600107067007073230070732200199999001075710010757200707814007078130019999900108048001080490070827600708275001999990010849500108496007087090070870800199999001089130010891400709111007091100019999900109206001092070070930100709300001999990010939200109393007094830070948200199999001095690010957000709654007096530019999900109734001097350070981300709812001999990010988700109888007999990070995700199999060

/-- `pad_grid.npz`: `grid[4470, 0], grid[4470, 10], …, grid[4470, 5580]`. -/
def padGrid447 : Nat :=
  9999906604768008999990010469300804615008999990010453400804450008999990010436300804273008999990010418100804087008999990010399100803794008999990010358900803376008999990010315600802929008999990010269400802452008999990010220300801947008999990010168500801417008999990010114200800860008999990010057200800278008999990010539800805692008999990010598000806262008999990010653700806805008999990010706700807323008999990010757200807814008999990010804900808276008999990010849600808709008999990010891400809111008999990010920700809301008999990010939300809483008999990010957000809654008999990010973500809813008999990010988800899999068

/-- `pad_grid.npz`: `grid[4480, 0], grid[4480, 10], …, grid[4480, 5580]`. -/
def padGrid448 : Nat :=
  999990660476800699999001047690019999900104694001999990010469300604615006999990010461600199999001045350019999900104534006044500069999900104451001999990010436400199999001043630060427300699999001042740019999900104182001999990010418100604087006999990010408800199999001039920019999900103991006037940069999900103795001999990010359000199999001035890060337600699999001033770019999900103157001999990010315600602929006999990010293000199999001026950019999900102694006024520069999900102453001999990010220400199999001022030060194700699999001019480019999900101686001999990010168500601417006999990010141800199999001011430019999900101142006008600069999900100861001999990010057300199999001005720060027800699999001002790019999900105399001999990010539800605692006999990010569300199999001059810019999900105980006062620069999900106263001999990010653800199999001065370060680500699999001068060019999900107068001999990010706700607323006999990010732400199999001075730019999900107572006078140069999900107815001999990010805000199999001080490060827600699999001082770019999900108497001999990010849600608709006999990010871000199999001089150019999900108914006091110069999900109112001999990010920800199999001092070060930100699999001093020019999900109394001999990010939300609483006999990010948400199999001095710019999900109570006096540069999900109655001999990010973600199999001097350060981300699999001098140019999900109889001999990010988800699999068

/-- `pad_grid.npz`: `grid[4490, 0], grid[4490, 10], …, grid[4490, 5580]`. -/
def padGrid449 : Nat :=
  99999066047680050476900399999001046940030469300504615005046160039999900104535003045340050445000504451003999990010436400304363005042730050427400399999001041820030418100504087005040880039999900103992003039910050379400503795003999990010359000303589005033760050337700399999001031570030315600502929005029300039999900102695003026940050245200502453003999990010220400302203005019470050194800399999001016860030168500501417005014180039999900101143003011420050086000500861003999990010057300300572005002780050027900399999001053990030539800505692005056930039999900105981003059800050626200506263003999990010653800306537005068050050680600399999001070680030706700507323005073240039999900107573003075720050781400507815003999990010805000308049005082760050827700399999001084970030849600508709005087100039999900108915003089140050911100509112003999990010920800309207005093010050930200399999001093940030939300509483005094840039999900109571003095700050965400509655003999990010973600309735005098130050981400399999001098890030988800599999068

/-- `pad_grid.npz`: `grid[4500, 0], grid[4500, 10], …, grid[4500, 5580]`. -/
def padGrid450 : Nat :=
  99999066047680030476900599999001046940050469300304615003046160059999900104535005045340030445000304451005999990010436400504363003042730030427400599999001041820050418100304087003040880059999900103992005039910030379400303795005999990010359000503589003033760030337700599999001031570050315600302929003029300059999900102695005026940030245200302453005999990010220400502203003019470030194800599999001016860050168500301417003014180059999900101143005011420030086000300861005999990010057300500572003002780030027900599999001053990050539800305692003056930059999900105981005059800030626200306263005999990010653800506537003068050030680600599999001070680050706700307323003073240059999900107573005075720030781400307815005999990010805000508049003082760030827700599999001084970050849600308709003087100059999900108915005089140030911100309112005999990010920800509207003093010030930200599999001093940050939300309483003094840059999900109571005095700030965400309655005999990010973600509735003098130030981400599999001098890050988800399999068

/-- `pad_grid.npz`: `grid[4510, 0], grid[4510, 10], …, grid[4510, 5580]`. -/
def padGrid451 : Nat :=
  99999066047680010476900799999001046940070469300104615001046160079999900104535007045340010445000104451007999990010436400704363001042730010427400799999001041820070418100104087001040880079999900103992007039910010379400103795007999990010359000703589001033760010337700799999001031570070315600102929001029300079999900102695007026940010245200102453007999990010220400702203001019470010194800799999001016860070168500101417001014180079999900101143007011420010086000100861007999990010057300700572001002780010027900799999001053990070539800105692001056930079999900105981007059800010626200106263007999990010653800706537001068050010680600799999001070680070706700107323001073240079999900107573007075720010781400107815007999990010805000708049001082760010827700799999001084970070849600108709001087100079999900108915007089140010911100109112007999990010920800709207001093010010930200799999001093940070939300109483001094840079999900109571007095700010965400109655007999990010973600709735001098130010981400799999001098890070988800199999068

/-- `pad_grid.npz`: `grid[4520, 0], grid[4520, 10], …, grid[4520, 5580]`. -/
def padGrid452 : Nat :=
  9999906604769008999990010469400804616008999990010453500804451008999990010436400804274008999990010418200804088008999990010399200803795008999990010359000803377008999990010315700802930008999990010269500802453008999990010220400801948008999990010168600801418008999990010114300800861008999990010057300800279008999990010539900805693008999990010598100806263008999990010653800806806008999990010706800807324008999990010757300807815008999990010805000808277008999990010849700808710008999990010891500809112008999990010920800809302008999990010939400809484008999990010957100809655008999990010973600809814008999990010988900899999068

/-- `pad_grid.npz`: `grid[4530, 0], grid[4530, 10], …, grid[4530, 5580]`. -/
def padGrid453 : Nat :=
  99999066047700020476900699999001046940060469500204617002046160069999900104535006045360020445200204451006999990010436400604365002042750020427400699999001041820060418300204089002040880069999900103992006039930020379600203795006999990010359000603591002033780020337700699999001031570060315800202931002029300069999900102695006026960020245400202453006999990010220400602205002019490020194800699999001016860060168700201419002014180069999900101143006011440020086200200861006999990010057300600574002002800020027900699999001053990060540000205694002056930069999900105981006059820020626400206263006999990010653800606539002068070020680600699999001070680060706900207325002073240069999900107573006075740020781600207815006999990010805000608051002082780020827700699999001084970060849800208711002087100069999900108915006089160020911300209112006999990010920800609209002093030020930200699999001093940060939500209485002094840069999900109571006095720020965600209655006999990010973600609737002098150020981400699999001098890060989000299999068

/-- `pad_grid.npz`: `grid[4540, 0], grid[4540, 10], …, grid[4540, 5580]`. -/
def padGrid454 : Nat :=
  99999066047700040476900499999001046940040469500404617004046160049999900104535004045360040445200404451004999990010436400404365004042750040427400499999001041820040418300404089004040880049999900103992004039930040379600403795004999990010359000403591004033780040337700499999001031570040315800402931004029300049999900102695004026960040245400402453004999990010220400402205004019490040194800499999001016860040168700401419004014180049999900101143004011440040086200400861004999990010057300400574004002800040027900499999001053990040540000405694004056930049999900105981004059820040626400406263004999990010653800406539004068070040680600499999001070680040706900407325004073240049999900107573004075740040781600407815004999990010805000408051004082780040827700499999001084970040849800408711004087100049999900108915004089160040911300409112004999990010920800409209004093030040930200499999001093940040939500409485004094840049999900109571004095720040965600409655004999990010973600409737004098150040981400499999001098890040989000499999068

/-- `pad_grid.npz`: `grid[4550, 0], grid[4550, 10], …, grid[4550, 5580]`. -/
def padGrid455 : Nat :=
  999990660477000599999001047690029999900104694002999990010469500504617005999990010461600299999001045350029999900104536005044520059999900104451002999990010436400299999001043650050427500599999001042740029999900104182002999990010418300504089005999990010408800299999001039920029999900103993005037960059999900103795002999990010359000299999001035910050337800599999001033770029999900103157002999990010315800502931005999990010293000299999001026950029999900102696005024540059999900102453002999990010220400299999001022050050194900599999001019480029999900101686002999990010168700501419005999990010141800299999001011430029999900101144005008620059999900100861002999990010057300299999001005740050028000599999001002790029999900105399002999990010540000505694005999990010569300299999001059810029999900105982005062640059999900106263002999990010653800299999001065390050680700599999001068060029999900107068002999990010706900507325005999990010732400299999001075730029999900107574005078160059999900107815002999990010805000299999001080510050827800599999001082770029999900108497002999990010849800508711005999990010871000299999001089150029999900108916005091130059999900109112002999990010920800299999001092090050930300599999001093020029999900109394002999990010939500509485005999990010948400299999001095710029999900109572005096560059999900109655002999990010973600299999001097370050981500599999001098140029999900109889002999990010989000599999068

/-- `pad_grid.npz`: `grid[4560, 0], grid[4560, 10], …, grid[4560, 5580]`. -/
def padGrid456 : Nat :=
  99999066047700070476900199999001046940010469500704617007046160019999900104535001045360070445200704451001999990010436400104365007042750070427400199999001041820010418300704089007040880019999900103992001039930070379600703795001999990010359000103591007033780070337700199999001031570010315800702931007029300019999900102695001026960070245400702453001999990010220400102205007019490070194800199999001016860010168700701419007014180019999900101143001011440070086200700861001999990010057300100574007002800070027900199999001053990010540000705694007056930019999900105981001059820070626400706263001999990010653800106539007068070070680600199999001070680010706900707325007073240019999900107573001075740070781600707815001999990010805000108051007082780070827700199999001084970010849800708711007087100019999900108915001089160070911300709112001999990010920800109209007093030070930200199999001093940010939500709485007094840019999900109571001095720070965600709655001999990010973600109737007098150070981400199999001098890010989000799999068

/-- `pad_grid.npz`: `grid[4570, 0], grid[4570, 10], …, grid[4570, 5580]`. -/
def padGrid457 : Nat :=
  9999906604770008999990010469500804617008999990010453600804452008999990010436500804275008999990010418300804089008999990010399300803796008999990010359100803378008999990010315800802931008999990010269600802454008999990010220500801949008999990010168700801419008999990010114400800862008999990010057400800280008999990010540000805694008999990010598200806264008999990010653900806807008999990010706900807325008999990010757400807816008999990010805100808278008999990010849800808711008999990010891600809113008999990010920900809303008999990010939500809485008999990010957200809656008999990010973700809815008999990010989000899999068

/-- `pad_grid.npz`: `grid[4580, 0], grid[4580, 10], …, grid[4580, 5580]`. -/
def padGrid458 : Nat :=
  9999906604770006999990030469600204695006046170060461800299999001045370020453600604452006044530029999900104366002043650060427500604276002999990010418400204183006040890060409000299999001039940020399300603796006037970029999900103592002035910060337800603379002999990010315900203158006029310060293200299999001026970020269600602454006024550029999900102206002022050060194900601950002999990010168800201687006014190060142000299999001011450020114400600862006008630029999900100575002005740060028000600281002999990010540100205400006056940060569500299999001059830020598200606264006062650029999900106540002065390060680700606808002999990010707000207069006073250060732600299999001075750020757400607816006078170029999900108052002080510060827800608279002999990010849900208498006087110060871200299999001089170020891600609113006091140029999900109210002092090060930300609304002999990010939600209395006094850060948600299999001095730020957200609656006096570029999900109738002097370060981500609816002999990030989000699999068

/-- `pad_grid.npz`: `grid[4590, 0], grid[4590, 10], …, grid[4590, 5580]`. -/
def padGrid459 : Nat :=
  9999906604770004999990050469600399999001046950040461700499999001046180039999900104537003999990010453600404452004999990010445300399999001043660039999900104365004042750049999900104276003999990010418400399999001041830040408900499999001040900039999900103994003999990010399300403796004999990010379700399999001035920039999900103591004033780049999900103379003999990010315900399999001031580040293100499999001029320039999900102697003999990010269600402454004999990010245500399999001022060039999900102205004019490049999900101950003999990010168800399999001016870040141900499999001014200039999900101145003999990010114400400862004999990010086300399999001005750039999900100574004002800049999900100281003999990010540100399999001054000040569400499999001056950039999900105983003999990010598200406264004999990010626500399999001065400039999900106539004068070049999900106808003999990010707000399999001070690040732500499999001073260039999900107575003999990010757400407816004999990010781700399999001080520039999900108051004082780049999900108279003999990010849900399999001084980040871100499999001087120039999900108917003999990010891600409113004999990010911400399999001092100039999900109209004093030049999900109304003999990010939600399999001093950040948500499999001094860039999900109573003999990010957200409656004999990010965700399999001097380039999900109737004098150049999900109816003999990050989000499999068

/-- `pad_grid.npz`: `grid[4600, 0], grid[4600, 10], …, grid[4600, 5580]`. -/
def padGrid460 : Nat :=
  9999906604770003999990060469600504695003046170030461800599999001045370050453600304452003044530059999900104366005043650030427500304276005999990010418400504183003040890030409000599999001039940050399300303796003037970059999900103592005035910030337800303379005999990010315900503158003029310030293200599999001026970050269600302454003024550059999900102206005022050030194900301950005999990010168800501687003014190030142000599999001011450050114400300862003008630059999900100575005005740030028000300281005999990010540100505400003056940030569500599999001059830050598200306264003062650059999900106540005065390030680700306808005999990010707000507069003073250030732600599999001075750050757400307816003078170059999900108052005080510030827800308279005999990010849900508498003087110030871200599999001089170050891600309113003091140059999900109210005092090030930300309304005999990010939600509395003094850030948600599999001095730050957200309656003096570059999900109738005097370030981500309816005999990060989000399999068

/-- `pad_grid.npz`: `grid[4610, 0], grid[4610, 10], …, grid[4610, 5580]`. -/
def padGrid461 : Nat :=
  9999906604770001999990080469600704695001046170010461800799999001045370070453600104452001044530079999900104366007043650010427500104276007999990010418400704183001040890010409000799999001039940070399300103796001037970079999900103592007035910010337800103379007999990010315900703158001029310010293200799999001026970070269600102454001024550079999900102206007022050010194900101950007999990010168800701687001014190010142000799999001011450070114400100862001008630079999900100575007005740010028000100281007999990010540100705400001056940010569500799999001059830070598200106264001062650079999900106540007065390010680700106808007999990010707000707069001073250010732600799999001075750070757400107816001078170079999900108052007080510010827800108279007999990010849900708498001087110010871200799999001089170070891600109113001091140079999900109210007092090010930300109304007999990010939600709395001094850010948600799999001095730070957200109656001096570079999900109738007097370010981500109816007999990080989000199999068

/-- `pad_grid.npz`: `grid[4620, 0], grid[4620, 10], …, grid[4620, 5580]`. -/
def padGrid462 : Nat :=
  99999075046960070469700104619001046180079999900104537007045380010445400104453007999990010436600704367001042770010427600799999001041840070418500104091001040900079999900103994007039950010379800103797007999990010359200703593001033800010337900799999001031590070316000102933001029320079999900102697007026980010245600102455007999990010220600702207001019510010195000799999001016880070168900101421001014200079999900101145007011460010086400100863007999990010057500700576001002820010028100799999001054010070540200105696001056950079999900105983007059840010626600106265007999990010654000706541001068090010680800799999001070700070707100107327001073260079999900107575007075760010781800107817007999990010805200708053001082800010827900799999001084990070850000108713001087120079999900108917007089180010911500109114007999990010921000709211001093050010930400799999001093960070939700109487001094860079999900109573007095740010965800109657007999990010973800709739001098170010981600799999077

/-- `pad_grid.npz`: `grid[4630, 0], grid[4630, 10], …, grid[4630, 5580]`. -/
def padGrid463 : Nat :=
  999990750469600599999001046970020461900204618006999990010453700599999001045380020445400204453006999990010436600599999001043670020427700204276006999990010418400599999001041850020409100204090006999990010399400599999001039950020379800203797006999990010359200599999001035930020338000299999001033790059999900103159005999990010316000202933002999990010293200599999001026970059999900102698002024560029999900102455005999990010220600599999001022070020195100299999001019500059999900101688005999990010168900201421002999990010142000599999001011450059999900101146002008640029999900100863005999990010057500599999001005760020028200299999001002810059999900105401005999990010540200205696002999990010569500599999001059830059999900105984002062660029999900106265005999990010654000599999001065410020680900299999001068080059999900107070005999990010707100207327002999990010732600599999001075750059999900107576002078180029999900107817005999990010805200599999001080530020828000299999001082790059999900108499005999990010850000208713002999990010871200599999001089170060891800209115002999990010911400599999001092100060921100209305002999990010930400599999001093960060939700209487002999990010948600599999001095730060957400209658002999990010965700599999001097380060973900209817002999990010981600599999077

/-- `pad_grid.npz`: `grid[4640, 0], grid[4640, 10], …, grid[4640, 5580]`. -/
def padGrid464 : Nat :=
  99999075046960040469700404619004046180049999900104537004045380040445400404453004999990010436600404367004042770040427600499999001041840040418500404091004040900049999900103994004039950040379800403797004999990010359200403593004033800040337900499999001031590040316000402933004029320049999900102697004026980040245600402455004999990010220600402207004019510040195000499999001016880040168900401421004014200049999900101145004011460040086400400863004999990010057500400576004002820040028100499999001054010040540200405696004056950049999900105983004059840040626600406265004999990010654000406541004068090040680800499999001070700040707100407327004073260049999900107575004075760040781800407817004999990010805200408053004082800040827900499999001084990040850000408713004087120049999900108917004089180040911500409114004999990010921000409211004093050040930400499999001093960040939700409487004094860049999900109573004095740040965800409657004999990010973800409739004098170040981600499999077

/-- `pad_grid.npz`: `grid[4650, 0], grid[4650, 10], …, grid[4650, 5580]`. -/
def padGrid465 : Nat :=
  99999075046960020469700604619006046180029999900104537002045380060445400604453002999990010436600204367006042770060427600299999001041840020418500604091006040900029999900103994002039950060379800603797002999990010359200203593006033800060337900299999001031590020316000602933006029320029999900102697002026980060245600602455002999990010220600202207006019510060195000299999001016880020168900601421006014200029999900101145002011460060086400600863002999990010057500200576006002820060028100299999001054010020540200605696006056950029999900105983002059840060626600606265002999990010654000206541006068090060680800299999001070700020707100607327006073260029999900107575002075760060781800607817002999990010805200208053006082800060827900299999001084990020850000608713006087120029999900108917002089180060911500609114002999990010921000209211006093050060930400299999001093960020939700609487006094860029999900109573002095740060965800609657002999990010973800209739006098170060981600299999077

/-- `pad_grid.npz`: `grid[4660, 0], grid[4660, 10], …, grid[4660, 5580]`. -/
def padGrid466 : Nat :=
  99999075046970080461900799999002045380080445400799999002043670080427700799999002041850080409100799999002039950080379800799999002035930080338000799999002031600080293300799999002026980080245600799999002022070080195100899999001016890080142100899999001011460080086400899999001005760080028200899999001054020080569600899999001059840080626600899999001065410080680900899999001070710080732700899999002075760070781800899999002080530070828000899999002085000070871300899999002089180070911500899999002092110070930500899999002093970070948700899999002095740070965800899999002097390070981700899999077

/-- `pad_grid.npz`: `grid[4670, 0], grid[4670, 10], …, grid[4670, 5580]`. -/
def padGrid467 : Nat :=
  99999075046970080461900899999001045380080445400899999001043670080427700899999001041850080409100899999001039950080379800899999001035930080338000899999001031600080293300899999001026980080245600899999001022070080195100899999001016890080142100899999001011460080086400899999001005760080028200899999001054020080569600899999001059840080626600899999001065410080680900899999001070710080732700899999001075760080781800899999001080530080828000899999001085000080871300899999001089180080911500899999001092110080930500899999001093970080948700899999001095740080965800899999001097390080981700899999077

/-- `pad_grid.npz`: `grid[4680, 0], grid[4680, 10], …, grid[4680, 5580]`. -/
def padGrid468 : Nat :=
  9999907704697006046190060462000299999001045390020453800604454006044550029999900104368002043670060427700604278002999990010418600204185006040910060409200299999001039960020399500603798006037990029999900103594002035930060338000603381002999990010316100203160006029330060293400299999001026990020269800602456006024570029999900102208002022070060195100601952002999990010169000201689006014210060142200299999001011470020114600600864006008650029999900100577002005760060028200600283002999990010540300205402006056960060569700299999001059850020598400606266006062670029999900106542002065410060680900606810002999990010707200207071006073270060732800299999001075770020757600607818006078190029999900108054002080530060828000608281002999990010850100208500006087130060871400299999001089190020891800609115006091160029999900109212002092110060930500609306002999990010939800209397006094870060948800299999001095750020957400609658006096590029999900109740002097390060981700699999079

/-- `pad_grid.npz`: `grid[4690, 0], grid[4690, 10], …, grid[4690, 5580]`. -/
def padGrid469 : Nat :=
  9999907904697004046190040462000499999001045390040453800404454004044550049999900104368004043670040427700404278004999990010418600404185004040910040409200499999001039960040399500403798004037990049999900103594004035930040338000403381004999990010316100403160004029330040293400499999001026990040269800402456004024570049999900102208004022070040195100401952004999990010169000401689004014210040142200499999001011470040114600400864004008650049999900100577004005760040028200400283004999990010540300405402004056960040569700499999001059850040598400406266004062670049999900106542004065410040680900406810004999990010707200407071004073270040732800499999001075770040757600407818004078190049999900108054004080530040828000408281004999990010850100408500004087130040871400499999001089190040891800409115004091160049999900109212004092110040930500409306004999990010939800409397004094870040948800499999001095750040957400409658004096590049999900109740004097390040981700499999081

/-- `pad_grid.npz`: `grid[4700, 0], grid[4700, 10], …, grid[4700, 5580]`. -/
def padGrid470 : Nat :=
  999990810469700204619002999990010462000599999001045390059999900104538002044540029999900104455005999990010436800599999001043670020427700299999001042780059999900104186005999990010418500204091002999990010409200599999001039960059999900103995002037980029999900103799005999990010359400599999001035930020338000299999001033810059999900103161005999990010316000202933002999990010293400599999001026990059999900102698002024560029999900102457005999990010220800599999001022070020195100299999001019520059999900101690005999990010168900201421002999990010142200599999001011470059999900101146002008640029999900100865005999990010057700599999001005760020028200299999001002830059999900105403005999990010540200205696002999990010569700599999001059850059999900105984002062660029999900106267005999990010654200599999001065410020680900299999001068100059999900107072005999990010707100207327002999990010732800599999001075770059999900107576002078180029999900107819005999990010805400599999001080530020828000299999001082810059999900108501005999990010850000208713002999990010871400599999001089190059999900108918002091150029999900109116005999990010921200599999001092110020930500299999001093060059999900109398005999990010939700209487002999990010948800599999001095750059999900109574002096580029999900109659005999990010974000599999001097390020981700299999083

/-- `pad_grid.npz`: `grid[4710, 0], grid[4710, 10], …, grid[4710, 5580]`. -/
def padGrid471 : Nat :=
  9999908204697001046190010462000799999001045390070453800104454001044550079999900104368007043670010427700104278007999990010418600704185001040910010409200799999001039960070399500103798001037990079999900103594007035930010338000103381007999990010316100703160001029330010293400799999001026990070269800102456001024570079999900102208007022070010195100101952007999990010169000701689001014210010142200799999001011470070114600100864001008650079999900100577007005760010028200100283007999990010540300705402001056960010569700799999001059850070598400106266001062670079999900106542007065410010680900106810007999990010707200707071001073270010732800799999001075770070757600107818001078190079999900108054007080530010828000108281007999990010850100708500001087130010871400799999001089190070891800109115001091160079999900109212007092110010930500109306007999990010939800709397001094870010948800799999001095750070957400109658001096590079999900109740007097390010981700199999084

/-- `pad_grid.npz`: `grid[4720, 0], grid[4720, 10], …, grid[4720, 5580]`. -/
def padGrid472 : Nat :=
  99999084046200079999900104539007045400010445600104455007999990010436800704369001042790010427800799999001041860070418700104093001040920079999900103996007039970010380000103799007999990010359400703595001033820010338100799999001031610070316200102935001029340079999900102699007027000010245800102457007999990010220800702209001019530010195200799999001016900070169100101423001014220079999900101147007011480010086600100865007999990010057700700578001002840010028300799999001054030070540400105698001056970079999900105985007059860010626800106267007999990010654200706543001068110010681000799999001070720070707300107329001073280079999900107577007075780010782000107819007999990010805400708055001082820010828100799999001085010070850200108715001087140079999900108919007089200010911700109116007999990010921200709213001093070010930600799999001093980070939900109489001094880079999900109575007095760010966000109659007999990010974000799999086

/-- `pad_grid.npz`: `grid[4730, 0], grid[4730, 10], …, grid[4730, 5580]`. -/
def padGrid473 : Nat :=
  99999086046200059999900104539005045400030445600304455005999990010436800504369003042790030427800599999001041860050418700304093003040920059999900103996005039970030380000303799005999990010359400503595003033820030338100599999001031610050316200302935003029340059999900102699005027000030245800302457005999990010220800502209003019530030195200599999001016900050169100301423003014220059999900101147005011480030086600300865005999990010057700500578003002840030028300599999001054030050540400305698003056970059999900105985005059860030626800306267005999990010654200506543003068110030681000599999001070720050707300307329003073280059999900107577005075780030782000307819005999990010805400508055003082820030828100599999001085010050850200308715003087140059999900108919005089200030911700309116005999990010921200509213003093070030930600599999001093980050939900309489003094880059999900109575005095760030966000309659005999990010974000599999088

/-- `pad_grid.npz`: `grid[4740, 0], grid[4740, 10], …, grid[4740, 5580]`. -/
def padGrid474 : Nat :=
  999990880462000399999001045390039999900104540004044560049999900104455003999990010436800399999001043690040427900499999001042780039999900104186003999990010418700404093004999990010409200399999001039960039999900103997004038000049999900103799003999990010359400399999001035950040338200499999001033810039999900103161003999990010316200402935004999990010293400399999001026990039999900102700004024580049999900102457003999990010220800399999001022090040195300499999001019520039999900101690003999990010169100401423004999990010142200399999001011470039999900101148004008660049999900100865003999990010057700399999001005780040028400499999001002830039999900105403003999990010540400405698004999990010569700399999001059850039999900105986004062680049999900106267003999990010654200399999001065430040681100499999001068100039999900107072003999990010707300407329004999990010732800399999001075770039999900107578004078200049999900107819003999990010805400399999001080550040828200499999001082810039999900108501003999990010850200408715004999990010871400399999001089190039999900108920004091170049999900109116003999990010921200399999001092130040930700499999001093060039999900109398003999990010939900409489004999990010948800399999001095750039999900109576004096600049999900109659003999990010974000399999090

/-- `pad_grid.npz`: `grid[4750, 0], grid[4750, 10], …, grid[4750, 5580]`. -/
def padGrid475 : Nat :=
  99999089046200029999900104539002045400060445600604455002999990010436800204369006042790060427800299999001041860020418700604093006040920029999900103996002039970060380000603799002999990010359400203595006033820060338100299999001031610020316200602935006029340029999900102699002027000060245800602457002999990010220800202209006019530060195200299999001016900020169100601423006014220029999900101147002011480060086600600865002999990010057700200578006002840060028300299999001054030020540400605698006056970029999900105985002059860060626800606267002999990010654200206543006068110060681000299999001070720020707300607329006073280029999900107577002075780060782000607819002999990010805400208055006082820060828100299999001085010020850200608715006087140029999900108919002089200060911700609116002999990010921200209213006093070060930600299999001093980020939900609489006094880029999900109575002095760060966000609659002999990010974000299999091

/-- `pad_grid.npz`: `grid[4760, 0], grid[4760, 10], …, grid[4760, 5580]`. -/
def padGrid476 : Nat :=
  99999092045400080445600899999001043690080427900899999001041870080409300899999001039970080380000899999001035950080338200899999001031620080293500899999001027000080245800899999001022090080195300899999001016910080142300899999001011480080086600899999001005780080028400899999001054040080569800899999001059860080626800899999001065430080681100899999001070730080732900899999001075780080782000899999001080550080828200899999001085020080871500899999001089200080911700899999001092130080930700899999001093990080948900899999001095760080966000899999094

/-- `pad_grid.npz`: `grid[4770, 0], grid[4770, 10], …, grid[4770, 5580]`. -/
def padGrid477 : Nat :=
  999990920454100104540007044560070445700199999001043700010436900704279007042800019999900104188001041870070409300704094001999990010399800103997007038000070380100199999001035960010359500703382007033830019999900103163001031620070293500702936001999990010270100102700007024580070245900199999001022100010220900701953007019540019999900101692001016910070142300701424001999990010114900101148007008660070086700199999001005790010057800700284007002850019999900105405001054040070569800705699001999990010598700105986007062680070626900199999001065440010654300706811007068120019999900107074001070730070732900707330001999990010757900107578007078200070782100199999001080560010805500708282007082830019999900108503001085020070871500708716001999990010892100108920007091170070911800199999001092140010921300709307007093080019999900109400001093990070948900709490001999990010957700109576007096600070966100199999094

/-- `pad_grid.npz`: `grid[4780, 0], grid[4780, 10], …, grid[4780, 5580]`. -/
def padGrid478 : Nat :=
  999990920454100204540006044560059999900104457002999990010437000204369006042790059999900104280002999990010418800204187006040930059999900104094002999990010399800203997006038000059999900103801002999990010359600203595006033820059999900103383002999990010316300203162006029350059999900102936002999990010270100202700006024580059999900102459002999990010221000202209006019530059999900101954002999990010169200201691006014230059999900101424002999990010114900201148006008660060086700299999001005790020057800600284006002850029999900105405002054040060569800605699002999990010598700205986006062680060626900299999001065440029999900106543005068110060681200299999001070740029999900107073005073290060733000299999001075790029999900107578005078200060782100299999001080560029999900108055005082820060828300299999001085030029999900108502005087150060871600299999001089210029999900108920005091170060911800299999001092140029999900109213005093070060930800299999001094000029999900109399005094890060949000299999001095770029999900109576005096600060966100299999094

/-- `pad_grid.npz`: `grid[4790, 0], grid[4790, 10], …, grid[4790, 5580]`. -/
def padGrid479 : Nat :=
  999990920454100404540004044560040445700499999001043700040436900404279004042800049999900104188004041870040409300404094004999990010399800403997004038000040380100499999001035960040359500403382004033830049999900103163004031620040293500402936004999990010270100402700004024580040245900499999001022100040220900401953004019540049999900101692004016910040142300401424004999990010114900401148004008660040086700499999001005790040057800400284004002850049999900105405004054040040569800405699004999990010598700405986004062680040626900499999001065440040654300406811004068120049999900107074004070730040732900407330004999990010757900407578004078200040782100499999001080560040805500408282004082830049999900108503004085020040871500408716004999990010892100408920004091170040911800499999001092140040921300409307004093080049999900109400004093990040948900409490004999990010957700409576004096600040966100499999094

/-- `pad_grid.npz`: `grid[4800, 0], grid[4800, 10], …, grid[4800, 5580]`. -/
def padGrid480 : Nat :=
  999990920454100604540002044560020445700699999001043700060436900204279002042800069999900104188006041870020409300204094006999990010399800603997002038000020380100699999001035960060359500203382002033830069999900103163006031620020293500202936006999990010270100602700002024580020245900699999001022100060220900201953002019540069999900101692006016910020142300201424006999990010114900601148002008660020086700699999001005790060057800200284002002850069999900105405006054040020569800205699006999990010598700605986002062680020626900699999001065440060654300206811002068120069999900107074006070730020732900207330006999990010757900607578002078200020782100699999001080560060805500208282002082830069999900108503006085020020871500208716006999990010892100608920002091170020911800699999001092140060921300209307002093080069999900109400006093990020948900209490006999990010957700609576002096600020966100699999094

/-- `pad_grid.npz`: `grid[4810, 0], grid[4810, 10], …, grid[4810, 5580]`. -/
def padGrid481 : Nat :=
  9999909204541007999990010445700899999001043700079999900104280008999990010418800799999001040940089999900103998007999990010380100899999001035960079999900103383008999990010316300799999001029360089999900102701007999990020245900799999001022100079999900201954007999990010169200799999002014240079999900101149007999990020086700799999001005790079999900200285007999990010540500799999002056990079999900105987007999990020626900799999001065440079999900206812007999990010707400799999002073300079999900107579007999990020782100799999001080560089999900108283007999990010850300899999001087160079999900108921008999990010911800799999001092140089999900109308007999990010940000899999001094900079999900109577008999990010966100799999094

/-- `pad_grid.npz`: `grid[4820, 0], grid[4820, 10], …, grid[4820, 5580]`. -/
def padGrid482 : Nat :=
  999990920454100799999001044580010445700799999001043700070437100104281001042800079999900104188007041890010409500104094007999990010399800703999001038020010380100799999001035960070359700103384001033830079999900103163007031640010293700102936007999990010270100702702001024600010245900799999001022100070221100101955001019540079999900101692007016930010142500101424007999990010114900701150001008680010086700799999001005790070058000100286001002850079999900105405007054060010570000105699007999990010598700705988001062700010626900799999001065440070654500106813001068120079999900107074007070750010733100107330007999990010757900707580001078220010782100799999001080560070805700108284001082830079999900108503007085040010871700108716007999990010892100708922001091190010911800799999001092140070921500109309001093080079999900109400007094010010949100109490007999990010957700709578001999990010966100799999094

/-- `pad_grid.npz`: `grid[4830, 0], grid[4830, 10], …, grid[4830, 5580]`. -/
def padGrid483 : Nat :=
  999990920454100599999003044580030445700599999001043700050437100304281003042800059999900104188005041890030409500304094005999990010399800503999003038020030380100599999001035960050359700303384003033830059999900103163005031640030293700302936005999990010270100502702003024600030245900599999001022100050221100301955003019540059999900101692005016930030142500301424005999990010114900501150003008680030086700599999001005790050058000300286003002850059999900105405005054060030570000305699005999990010598700505988003062700030626900599999001065440050654500306813003068120059999900107074005070750030733100307330005999990010757900507580003078220030782100599999001080560050805700308284003082830059999900108503005085040030871700308716005999990010892100508922003091190030911800599999001092140050921500309309003093080059999900109400005094010030949100309490005999990010957700509578003999990030966100599999094

/-- `pad_grid.npz`: `grid[4840, 0], grid[4840, 10], …, grid[4840, 5580]`. -/
def padGrid484 : Nat :=
  999990920454100399999005044580050445700399999001043700030437100504281005042800039999900104188003041890050409500504094003999990010399800303999005038020050380100399999001035960030359700503384005033830039999900103163003031640050293700502936003999990010270100302702005024600050245900399999001022100030221100501955005019540039999900101692003016930050142500501424003999990010114900301150005008680050086700399999001005790030058000500286005002850039999900105405003054060050570000505699003999990010598700305988005062700050626900399999001065440030654500506813005068120039999900107074003070750050733100507330003999990010757900307580005078220050782100399999001080560030805700508284005082830039999900108503003085040050871700508716003999990010892100308922005091190050911800399999001092140030921500509309005093080039999900109400003094010050949100509490003999990010957700309578005999990050966100399999094

/-- `pad_grid.npz`: `grid[4850, 0], grid[4850, 10], …, grid[4850, 5580]`. -/
def padGrid485 : Nat :=
  999990920454100199999007044580069999900104457001999990010437000199999001043710060428100699999001042800019999900104188001999990010418900604095006999990010409400199999001039980019999900103999006038020069999900103801001999990010359600199999001035970060338400699999001033830019999900103163001999990010316400602937006999990010293600199999001027010019999900102702006024600069999900102459001999990010221000199999001022110060195500699999001019540019999900101692001999990010169300601425006999990010142400199999001011490019999900101150006008680069999900100867001999990010057900199999001005800060028600699999001002850019999900105405001999990010540600605700006999990010569900199999001059870019999900105988006062700069999900106269001999990010654400199999001065450060681300699999001068120019999900107074001999990010707500607331006999990010733000199999001075790019999900107580006078220069999900107821001999990010805600199999001080570060828400699999001082830019999900108503001999990010850400608717006999990010871600199999001089210019999900108922006091190069999900109118001999990010921400199999001092150060930900699999001093080019999900109400001999990010940100609491006999990010949000199999001095770019999900109578006999990070966100199999094

/-- `pad_grid.npz`: `grid[4860, 0], grid[4860, 10], …, grid[4860, 5580]`. -/
def padGrid486 : Nat :=
  9999910004458008999990010437100804281008999990010418900804095008999990010399900803802008999990010359700803384008999990010316400802937008999990010270200802460008999990010221100801955008999990010169300801425008999990010115000800868008999990010058000800286008999990010540600805700008999990010598800806270008999990010654500806813008999990010707500807331008999990010758000807822008999990010805700808284008999990010850400808717008999990010892200809119008999990010921500809309008999990010940100809491008999990010957800899999102

/-- `pad_grid.npz`: `grid[4870, 0], grid[4870, 10], …, grid[4870, 5580]`. -/
def padGrid487 : Nat :=
  999991000445800799999002043720010437100704281007042820019999900104190001041890070409500704096001999990010400000103999007038020070380300199999001035980010359700703384007033850019999900103165001031640070293700702938001999990010270300102702007024600070246100199999001022120010221100701955007019560019999900101694001016930070142500701426001999990010115100101150007008680070086900199999001005810010058000700286007002870019999900105407001054060070570000705701001999990010598900105988007062700070627100199999001065460010654500706813007068140019999900107076001070750070733100707332001999990010758100107580007078220070782300199999001080580010805700708284007082850019999900108505001085040070871700708718001999990010892300108922007091190070912000199999001092160010921500709309007093100019999900109402001094010070949100709492001999990020957800799999102

/-- `pad_grid.npz`: `grid[4880, 0], grid[4880, 10], …, grid[4880, 5580]`. -/
def padGrid488 : Nat :=
  999991000445800599999004043720030437100504281005042820039999900104190003041890050409500504096003999990010400000303999005038020050380300399999001035980030359700503384005033850039999900103165003031640050293700502938003999990010270300302702005024600050246100399999001022120030221100501955005019560039999900101694003016930050142500501426003999990010115100301150005008680050086900399999001005810030058000500286005002870039999900105407003054060050570000505701003999990010598900305988005062700050627100399999001065460030654500506813005068140039999900107076003070750050733100507332003999990010758100307580005078220050782300399999001080580030805700508284005082850039999900108505003085040050871700508718003999990010892300308922005091190050912000399999001092160030921500509309005093100039999900109402003094010050949100509492003999990040957800599999102

/-- `pad_grid.npz`: `grid[4890, 0], grid[4890, 10], …, grid[4890, 5580]`. -/
def padGrid489 : Nat :=
  99999100044580039999900604372004999990010437100304281003999990010428200499999001041900049999900104189003040950039999900104096004999990010400000499999001039990030380200399999001038030049999900103598004999990010359700303384003999990010338500499999001031650049999900103164003029370039999900102938004999990010270300499999001027020030246000399999001024610049999900102212004999990010221100301955003999990010195600499999001016940049999900101693003014250039999900101426004999990010115100499999001011500030086800399999001008690049999900100581004999990010058000300286003999990010028700499999001054070049999900105406003057000039999900105701004999990010598900499999001059880030627000399999001062710049999900106546004999990010654500306813003999990010681400499999001070760049999900107075003073310039999900107332004999990010758100499999001075800030782200399999001078230049999900108058004999990010805700308284003999990010828500499999001085050049999900108504003087170039999900108718004999990010892300499999001089220030911900399999001091200049999900109216004999990010921500309309003999990010931000499999001094020049999900109401003094910039999900109492004999990060957800399999102

/-- `pad_grid.npz`: `grid[4900, 0], grid[4900, 10], …, grid[4900, 5580]`. -/
def padGrid490 : Nat :=
  999991000445800299999007043720060437100204281002042820069999900104190006041890020409500204096006999990010400000603999002038020020380300699999001035980060359700203384002033850069999900103165006031640020293700202938006999990010270300602702002024600020246100699999001022120060221100201955002019560069999900101694006016930020142500201426006999990010115100601150002008680020086900699999001005810060058000200286002002870069999900105407006054060020570000205701006999990010598900605988002062700020627100699999001065460060654500206813002068140069999900107076006070750020733100207332006999990010758100607580002078220020782300699999001080580060805700208284002082850069999900108505006085040020871700208718006999990010892300608922002091190020912000699999001092160060921500209309002093100069999900109402006094010020949100209492006999990070957800299999102

/-- `pad_grid.npz`: `grid[4910, 0], grid[4910, 10], …, grid[4910, 5580]`. -/
def padGrid491 : Nat :=
  99999109043720080428200899999001041900080409600899999001040000080380300899999001035980080338500899999001031650080293800899999001027030080246100899999001022120080195600899999001016940080142600899999001011510080086900899999001005810080028700899999001054070080570100899999001059890080627100899999001065460080681400899999001070760080733200899999001075810080782300899999001080580080828500899999001085050080871800899999001089230080912000899999001092160080931000899999001094020080949200899999111

/-- `pad_grid.npz`: `grid[4920, 0], grid[4920, 10], …, grid[4920, 5580]`. -/
def padGrid492 : Nat :=
  9999910904372006043730020428300204282006999990010419000604191002040970020409600699999001040000060400100203804002038030069999900103598006035990020338600203385006999990010316500603166002029390020293800699999001027030060270400202462002024610069999900102212006022130020195700201956006999990010169400601695002014270020142600699999001011510060115200200870002008690069999900100581006005820020028800200287006999990010540700605408002057020020570100699999001059890060599000206272002062710069999900106546006065470020681500206814006999990010707600607077002073330020733200699999001075810060758200207824002078230069999900108058006080590020828600208285006999990010850500608506002087190020871800699999001089230060892400209121002091200069999900109216006092170020931100209310006999990010940200609403002094930020949200699999111

/-- `pad_grid.npz`: `grid[4930, 0], grid[4930, 10], …, grid[4930, 5580]`. -/
def padGrid493 : Nat :=
  9999910904372005043730030428300304282005999990010419000504191003040970030409600599999001040000050400100303804003038030059999900103598005035990030338600303385005999990010316500503166003029390030293800599999001027030050270400302462003024610059999900102212005022130030195700301956005999990010169400501695003014270030142600599999001011510050115200300870003008690059999900100581005005820030028800300287005999990010540700505408003057020030570100599999001059890050599000306272003062710059999900106546005065470030681500306814005999990010707600507077003073330030733200599999001075810050758200307824003078230059999900108058005080590030828600308285005999990010850500508506003087190030871800599999001089230050892400309121003091200059999900109216005092170030931100309310005999990010940200509403003094930030949200599999111

/-- `pad_grid.npz`: `grid[4940, 0], grid[4940, 10], …, grid[4940, 5580]`. -/
def padGrid494 : Nat :=
  9999910904372003043730050428300504282003999990010419000304191005040970050409600399999001040000030400100503804005038030039999900103598003035990050338600503385003999990010316500303166005029390050293800399999001027030030270400502462005024610039999900102212003022130050195700501956003999990010169400301695005014270050142600399999001011510030115200500870005008690039999900100581003005820050028800500287003999990010540700305408005057020050570100399999001059890030599000506272005062710039999900106546003065470050681500506814003999990010707600307077005073330050733200399999001075810030758200507824005078230039999900108058003080590050828600508285003999990010850500308506005087190050871800399999001089230030892400509121005091200039999900109216003092170050931100509310003999990010940200309403005094930050949200399999111

/-- `pad_grid.npz`: `grid[4950, 0], grid[4950, 10], …, grid[4950, 5580]`. -/
def padGrid495 : Nat :=
  9999910904372001043730070428300704282001999990010419000104191007040970070409600199999001040000010400100703804007038030019999900103598001035990070338600703385001999990010316500103166007029390070293800199999001027030010270400702462007024610019999900102212001022130070195700701956001999990010169400101695007014270070142600199999001011510010115200700870007008690019999900100581001005820070028800700287001999990010540700105408007057020070570100199999001059890010599000706272007062710019999900106546001065470070681500706814001999990010707600107077007073330070733200199999001075810010758200707824007078230019999900108058001080590070828600708285001999990010850500108506007087190070871800199999001089230010892400709121007091200019999900109216001092170070931100709310001999990010940200109403007094930070949200199999111

/-- `pad_grid.npz`: `grid[4960, 0], grid[4960, 10], …, grid[4960, 5580]`. -/
def padGrid496 : Nat :=
  99999109043730080428300899999001041910080409700899999001040010080380400899999001035990080338600899999001031660080293900899999001027040080246200899999001022130080195700899999001016950080142700899999001011520080087000899999001005820080028800899999001054080080570200899999001059900080627200899999001065470080681500899999001070770080733300899999001075820080782400899999001080590080828600899999001085060080871900899999001089240080912100899999001092170080931100899999001094030080949300899999111

/-- `pad_grid.npz`: `grid[4970, 0], grid[4970, 10], …, grid[4970, 5580]`. -/
def padGrid497 : Nat :=
  999991100437300704283007042840019999900104192001041910070409700704098001999990010400200104001007038040070380500199999001036000010359900703386007033870019999900103167001031660070293900702940001999990010270500102704007024620070246300199999001022140010221300701957007019580019999900101696001016950070142700701428001999990010115300101152007008700070087100199999001005830010058200700288007002890019999900105409001054080070570200705703001999990010599100105990007062720070627300199999001065480010654700706815007068160019999900107078001070770070733300707334001999990010758300107582007078240070782500199999001080600010805900708286007082870019999900108507001085060070871900708720001999990010892500108924007091210070912200199999001092180010921700709311007093120019999900109404001094030070949300799999112

/-- `pad_grid.npz`: `grid[4980, 0], grid[4980, 10], …, grid[4980, 5580]`. -/
def padGrid498 : Nat :=
  999991120437300504283005042840039999900104192003041910050409700504098003999990010400200304001005038040050380500399999001036000030359900503386005033870039999900103167003031660050293900502940003999990010270500302704005024620050246300399999001022140030221300501957005019580039999900101696003016950050142700501428003999990010115300301152005008700050087100399999001005830030058200500288005002890039999900105409003054080050570200505703003999990010599100305990005062720050627300399999001065480030654700506815005068160039999900107078003070770050733300507334003999990010758300307582005078240050782500399999001080600030805900508286005082870039999900108507003085060050871900508720003999990010892500308924005091210050912200399999001092180030921700509311005093120039999900109404003094030050949300599999114

/-- `pad_grid.npz`: `grid[4990, 0], grid[4990, 10], …, grid[4990, 5580]`. -/
def padGrid499 : Nat :=
  999991140437300304283003042840059999900104192005041910030409700304098005999990010400200504001003038040030380500599999001036000050359900303386003033870059999900103167005031660030293900302940005999990010270500502704003024620030246300599999001022140050221300301957003019580059999900101696005016950030142700301428005999990010115300501152003008700030087100599999001005830050058200300288003002890059999900105409005054080030570200305703005999990010599100505990003062720030627300599999001065480050654700306815003068160059999900107078005070770030733300307334005999990010758300507582003078240030782500599999001080600050805900308286003082870059999900108507005085060030871900308720005999990010892500508924003091210030912200599999001092180050921700309311003093120059999900109404005094030030949300399999116

/-- `pad_grid.npz`: `grid[5000, 0], grid[5000, 10], …, grid[5000, 5580]`. -/
def padGrid500 : Nat :=
  9999911604373001042830019999900104284006999990010419200699999001041910010409700199999001040980069999900104002006999990010400100103804001999990010380500699999001036000069999900103599001033860019999900103387006999990010316700699999001031660010293900199999001029400069999900102705006999990010270400102462001999990010246300699999001022140069999900102213001019570019999900101958006999990010169600699999001016950010142700199999001014280069999900101153006999990010115200100870001999990010087100699999001005830069999900100582001002880019999900100289006999990010540900699999001054080010570200199999001057030069999900105991006999990010599000106272001999990010627300699999001065480069999900106547001068150019999900106816006999990010707800699999001070770010733300199999001073340069999900107583006999990010758200107824001999990010782500699999001080600069999900108059001082860019999900108287006999990010850700699999001085060010871900199999001087200069999900108925006999990010892400109121001999990010912200699999001092180069999900109217001093110019999900109312006999990010940400699999001094030010949300199999118

/-- `pad_grid.npz`: `grid[5010, 0], grid[5010, 10], …, grid[5010, 5580]`. -/
def padGrid501 : Nat :=
  9999911704284008999990010419200804098008999990010400200803805008999990010360000803387008999990010316700802940008999990010270500802463008999990010221400801958008999990010169600801428008999990010115300800871008999990010058300800289008999990010540900805703008999990010599100806273008999990010654800806816008999990010707800807334008999990010758300807825008999990010806000808287008999990010850700808720008999990010892500809122008999990010921800809312008999990010940400899999119

/-- `pad_grid.npz`: `grid[5020, 0], grid[5020, 10], …, grid[5020, 5580]`. -/
def padGrid502 : Nat :=
  9999911904284006999990010419200604193002040990020409800699999001040020060400300203806002038050069999900103600006036010020338800203387006999990010316700603168002029410020294000699999001027050060270600202464002024630069999900102214006022150020195900201958006999990010169600601697002014290020142800699999001011530060115400200872002008710069999900100583006005840020029000200289006999990010540900605410002057040020570300699999001059910060599200206274002062730069999900106548006065490020681700206816006999990010707800607079002073350020733400699999001075830060758400207826002078250069999900108060006080610020828800208287006999990010850700608508002087210020872000699999001089250060892600209123002091220069999900109218006092190020931300209312006999990010940400699999121

/-- `pad_grid.npz`: `grid[5030, 0], grid[5030, 10], …, grid[5030, 5580]`. -/
def padGrid503 : Nat :=
  9999912104284004999990010419200404193004040990040409800499999001040020040400300403806004038050049999900103600004036010040338800403387004999990010316700403168004029410040294000499999001027050040270600402464004024630049999900102214004022150040195900401958004999990010169600401697004014290040142800499999001011530040115400400872004008710049999900100583004005840040029000400289004999990010540900405410004057040040570300499999001059910040599200406274004062730049999900106548004065490040681700406816004999990010707800407079004073350040733400499999001075830040758400407826004078250049999900108060004080610040828800408287004999990010850700408508004087210040872000499999001089250040892600409123004091220049999900109218004092190040931300409312004999990010940400499999123

/-- `pad_grid.npz`: `grid[5040, 0], grid[5040, 10], …, grid[5040, 5580]`. -/
def padGrid504 : Nat :=
  999991220428400399999001041920029999900104193005040990050409800399999001040020029999900104003005038060059999900103805002999990010360000299999001036010050338800599999001033870029999900103167002999990010316800502941005999990010294000299999001027050029999900102706005024640059999900102463002999990010221400299999001022150050195900599999001019580029999900101696002999990010169700501429005999990010142800299999001011530029999900101154005008720059999900100871002999990010058300299999001005840050029000599999001002890029999900105409002999990010541000505704005999990010570300299999001059910029999900105992005062740059999900106273002999990010654800299999001065490050681700599999001068160029999900107078002999990010707900507335005999990010733400299999001075830029999900107584005078260059999900107825002999990010806000299999001080610050828800599999001082870029999900108507002999990010850800508721005999990010872000299999001089250029999900108926005091230059999900109122002999990010921800309219005093130059999900109312002999990010940400399999124

/-- `pad_grid.npz`: `grid[5050, 0], grid[5050, 10], …, grid[5050, 5580]`. -/
def padGrid505 : Nat :=
  9999912404284001999990010419200104193007040990070409800199999001040020010400300703806007038050019999900103600001036010070338800703387001999990010316700103168007029410070294000199999001027050010270600702464007024630019999900102214001022150070195900701958001999990010169600101697007014290070142800199999001011530010115400700872007008710019999900100583001005840070029000700289001999990010540900105410007057040070570300199999001059910010599200706274007062730019999900106548001065490070681700706816001999990010707800107079007073350070733400199999001075830010758400707826007078250019999900108060001080610070828800708287001999990010850700108508007087210070872000199999001089250010892600709123007091220019999900109218001092190070931300709312001999990010940400199999126

/-- `pad_grid.npz`: `grid[5060, 0], grid[5060, 10], …, grid[5060, 5580]`. -/
def padGrid506 : Nat :=
  99999126041930080409900899999001040030080380600899999001036010080338800899999001031680080294100899999001027060080246400899999001022150080195900899999001016970080142900899999001011540080087200899999001005840080029000899999001054100080570400899999001059920080627400899999001065490080681700899999001070790080733500899999001075840080782600899999001080610080828800899999001085080080872100899999001089260080912300899999001092190080931300899999128

/-- `pad_grid.npz`: `grid[5070, 0], grid[5070, 10], …, grid[5070, 5580]`. -/
def padGrid507 : Nat :=
  9999912804193006040990060410000299999001040040019999900104003006038060060380700299999001036020019999900103601006033880060338900299999001031690019999900103168006029410060294200299999001027070020270600602464006024650029999900102216002022150060195900601960002999990010169800201697006014290060143000299999001011550020115400600872006008730029999900100585002005840060029000600291002999990010541100205410006057040060570500299999001059930020599200606274006062750029999900106550002065490060681700606818002999990010708000207079006073350060733600299999001075850020758400607826006078270029999900108062002080610060828800699999001082890019999900108509002085080060872100699999001087220019999900108927002089260060912300699999001091240019999900109220002092190060931300699999130

/-- `pad_grid.npz`: `grid[5080, 0], grid[5080, 10], …, grid[5080, 5580]`. -/
def padGrid508 : Nat :=
  9999912904193005040990050410000399999001040040030400300503806005038070039999900103602003036010050338800503389003999990010316900303168005029410050294200399999001027070030270600502464005024650039999900102216003022150050195900501960003999990010169800301697005014290050143000399999001011550030115400500872005008730039999900100585003005840050029000500291003999990010541100305410005057040050570500399999001059930030599200506274005062750039999900106550003065490050681700506818003999990010708000307079005073350050733600399999001075850030758400507826005078270039999900108062003080610050828800508289003999990010850900308508005087210050872200399999001089270030892600509123005091240039999900109220003092190050931300599999131

/-- `pad_grid.npz`: `grid[5090, 0], grid[5090, 10], …, grid[5090, 5580]`. -/
def padGrid509 : Nat :=
  9999913104193003040990030410000599999001040040050400300303806003038070059999900103602005036010030338800303389005999990010316900503168003029410030294200599999001027070050270600302464003024650059999900102216005022150030195900301960005999990010169800501697003014290030143000599999001011550050115400300872003008730059999900100585005005840030029000300291005999990010541100505410003057040030570500599999001059930050599200306274003062750059999900106550005065490030681700306818005999990010708000507079003073350030733600599999001075850050758400307826003078270059999900108062005080610030828800308289005999990010850900508508003087210030872200599999001089270050892600309123003091240059999900109220005092190030931300399999133

/-- `pad_grid.npz`: `grid[5100, 0], grid[5100, 10], …, grid[5100, 5580]`. -/
def padGrid510 : Nat :=
  9999913304193001040990010410000799999001040040070400300103806001038070079999900103602007036010010338800103389007999990010316900703168001029410010294200799999001027070070270600102464001024650079999900102216007022150010195900101960007999990010169800701697001014290010143000799999001011550070115400100872001008730079999900100585007005840010029000100291007999990010541100705410001057040010570500799999001059930070599200106274001062750079999900106550007065490010681700106818007999990010708000707079001073350010733600799999001075850070758400107826001078270079999900108062007080610010828800108289007999990010850900708508001087210010872200799999001089270070892600109123001091240079999900109220007092190010931300199999135

/-- `pad_grid.npz`: `grid[5110, 0], grid[5110, 10], …, grid[5110, 5580]`. -/
def padGrid511 : Nat :=
  999991350410000799999001040040079999900203807007999990010360200799999002033890079999900103169007999990020294200799999001027070079999900202465007999990010221600799999002019600079999900101698007999990020143000799999001011550079999900200873007999990010058500799999002002910079999900105411007999990020570500799999001059930079999900206275007999990010655000799999002068180079999900107080007999990020733600799999001075850079999900207827007999990010806200799999002082890079999900108509007999990020872200799999001089270079999900209124007999990010922000799999137

/-- `pad_grid.npz`: `grid[5120, 0], grid[5120, 10], …, grid[5120, 5580]`. -/
def padGrid512 : Nat :=
  99999136041000069999900104004006040050020380800203807006999990010360200603603002033900020338900699999001031690060317000202943002029420069999900102707006027080020246600202465006999990010221600602217002019610020196000699999001016980060169900201431002014300069999900101155006011560020087400200873006999990010058500600586002002920020029100699999001054110060541200205706002057050069999900105993006059940020627600206275006999990010655000606551002068190020681800699999001070800060708100207337002073360069999900107585006075860020782800207827006999990010806200608063002082900020828900699999001085090060851000208723002087220069999900108927006089280020912500209124006999990010922000699999138

/-- `pad_grid.npz`: `grid[5130, 0], grid[5130, 10], …, grid[5130, 5580]`. -/
def padGrid513 : Nat :=
  99999138041000049999900104004004040050040380800403807004999990010360200403603004033900040338900499999001031690040317000402943004029420049999900102707004027080040246600402465004999990010221600402217004019610040196000499999001016980040169900401431004014300049999900101155004011560040087400400873004999990010058500400586004002920040029100499999001054110040541200405706004057050049999900105993004059940040627600406275004999990010655000406551004068190040681800499999001070800040708100407337004073360049999900107585004075860040782800407827004999990010806200408063004082900040828900499999001085090040851000408723004087220049999900108927004089280040912500409124004999990010922000499999140

/-- `pad_grid.npz`: `grid[5140, 0], grid[5140, 10], …, grid[5140, 5580]`. -/
def padGrid514 : Nat :=
  99999140041000029999900104004002040050060380800603807002999990010360200203603006033900060338900299999001031690020317000602943006029420029999900102707002027080060246600602465002999990010221600202217006019610060196000299999001016980020169900601431006014300029999900101155002011560060087400600873002999990010058500200586006002920060029100299999001054110020541200605706006057050029999900105993002059940060627600606275002999990010655000206551006068190060681800299999001070800020708100607337006073360029999900107585002075860060782800607827002999990010806200208063006082900060828900299999001085090020851000608723006087220029999900108927002089280060912500609124002999990010922000299999142

/-- `pad_grid.npz`: `grid[5150, 0], grid[5150, 10], …, grid[5150, 5580]`. -/
def padGrid515 : Nat :=
  99999144040050070380800799999003036030070339000799999003031700070294300799999003027080070246600799999003022170070196100799999003016990070143100799999003011560070087400799999003005860070029200799999003054120070570600799999003059940070627600799999003065510070681900799999003070810070733700799999003075860070782800799999003080630070829000799999003085100070872300799999003089280070912500799999146

/-- `pad_grid.npz`: `grid[5160, 0], grid[5160, 10], …, grid[5160, 5580]`. -/
def padGrid516 : Nat :=
  99999143040050080380800899999001036030080339000899999001031700080294300899999001027080080246600899999001022170080196100899999001016990080143100899999001011560080087400899999001005860080029200899999001054120080570600899999001059940080627600899999001065510080681900899999001070810080733700899999001075860080782800899999001080630080829000899999001085100080872300899999001089280080912500899999145

/-- `pad_grid.npz`: `grid[5170, 0], grid[5170, 10], …, grid[5170, 5580]`. -/
def padGrid517 : Nat :=
  99999145040050060380800603809002999990010360400203603006033900060339100299999001031710020317000602943006029440029999900102709002027080060246600602467002999990010221800202217006019610060196200299999001017000020169900601431006014320029999900101157002011560060087400600875002999990010058700200586006002920060029300299999001054130020541200605706006057070029999900105995002059940060627600606277002999990010655200206551006068190060682000299999001070820020708100607337006073380029999900107587002075860060782800607829002999990010806400208063006082900060829100299999001085110020851000608723006087240029999900108929002089280060912500699999147

/-- `pad_grid.npz`: `grid[5180, 0], grid[5180, 10], …, grid[5180, 5580]`. -/
def padGrid518 : Nat :=
  99999147040050040380800403809004999990010360400403603004033900040339100499999001031710040317000402943004029440049999900102709004027080040246600402467004999990010221800402217004019610040196200499999001017000040169900401431004014320049999900101157004011560040087400400875004999990010058700400586004002920040029300499999001054130040541200405706004057070049999900105995004059940040627600406277004999990010655200406551004068190040682000499999001070820040708100407337004073380049999900107587004075860040782800407829004999990010806400408063004082900040829100499999001085110040851000408723004087240049999900108929004089280040912500499999149

/-- `pad_grid.npz`: `grid[5190, 0], grid[5190, 10], …, grid[5190, 5580]`. -/
def padGrid519 : Nat :=
  999991480400500303808002999990010380900599999001036040050360300303390002999990010339100599999001031710050317000302943002999990010294400599999001027090050270800302466002999990010246700599999001022180050221700301961002999990010196200599999001017000050169900301431002999990010143200599999001011570050115600300874002999990010087500599999001005870050058600300292003002930059999900105413005054120030570600305707005999990010599500599999001059940020627600306277005999990010655200599999001065510020681900306820005999990010708200599999001070810020733700307338005999990010758700599999001075860020782800307829005999990010806400599999001080630020829000308291005999990010851100599999001085100020872300308724005999990010892900599999001089280020912500399999150

/-- `pad_grid.npz`: `grid[5200, 0], grid[5200, 10], …, grid[5200, 5580]`. -/
def padGrid520 : Nat :=
  99999150040050010380800103809007999990010360400703603001033900010339100799999001031710070317000102943001029440079999900102709007027080010246600102467007999990010221800702217001019610010196200799999001017000070169900101431001014320079999900101157007011560010087400100875007999990010058700700586001002920010029300799999001054130070541200105706001057070079999900105995007059940010627600106277007999990010655200706551001068190010682000799999001070820070708100107337001073380079999900107587007075860010782800107829007999990010806400708063001082900010829100799999001085110070851000108723001087240079999900108929007089280010912500199999152

/-- `pad_grid.npz`: `grid[5210, 0], grid[5210, 10], …, grid[5210, 5580]`. -/
def padGrid521 : Nat :=
  999991520380900799999001036040070360500103392001033910079999900103171007031720010294500102944007999990010270900702710001024680010246700799999001022180070221900101963001019620079999900101700007017010010143300101432007999990010115700701158001008760010087500799999001005870070058800100294001002930079999900105413007054140010570800105707007999990010599500705996001062780010627700799999001065520070655300106821001068200079999900107082007070830010733900107338007999990010758700707588001078300010782900799999001080640070806500108292001082910079999900108511007085120010872500108724007999990010892900799999154

/-- `pad_grid.npz`: `grid[5220, 0], grid[5220, 10], …, grid[5220, 5580]`. -/
def padGrid522 : Nat :=
  99999154038090059999900103604005036050030339200299999001033910059999900103171005031720030294500299999001029440059999900102709005027100030246800299999001024670059999900102218005999990010221900201963002999990010196200599999001017000059999900101701002014330029999900101432005999990010115700599999001011580020087600299999001008750059999900100587005999990010058800200294002999990010029300599999001054130059999900105414002057080029999900105707005999990010599500599999001059960020627800299999001062770059999900106552005999990010655300206821002999990010682000599999001070820059999900107083002073390029999900107338005999990010758700599999001075880020783000307829005999990010806400599999001080650020829200308291005999990010851100599999001085120020872500308724005999990010892900599999156

/-- `pad_grid.npz`: `grid[5230, 0], grid[5230, 10], …, grid[5230, 5580]`. -/
def padGrid523 : Nat :=
  999991550380900499999001036040040360500403392004033910049999900103171004031720040294500402944004999990010270900402710004024680040246700499999001022180040221900401963004019620049999900101700004017010040143300401432004999990010115700401158004008760040087500499999001005870040058800400294004002930049999900105413004054140040570800405707004999990010599500405996004062780040627700499999001065520040655300406821004068200049999900107082004070830040733900407338004999990010758700407588004078300040782900499999001080640040806500408292004082910049999900108511004085120040872500408724004999990010892900499999157

/-- `pad_grid.npz`: `grid[5240, 0], grid[5240, 10], …, grid[5240, 5580]`. -/
def padGrid524 : Nat :=
  999991570380900299999001036040020360500603392006033910029999900103171002031720060294500602944002999990010270900202710006024680060246700299999001022180020221900601963006019620029999900101700002017010060143300601432002999990010115700201158006008760060087500299999001005870020058800600294006002930029999900105413002054140060570800605707002999990010599500205996006062780060627700299999001065520020655300606821006068200029999900107082002070830060733900607338002999990010758700207588006078300060782900299999001080640020806500608292006082910029999900108511002085120060872500608724002999990010892900299999159

/-- `pad_grid.npz`: `grid[5250, 0], grid[5250, 10], …, grid[5250, 5580]`. -/
def padGrid525 : Nat :=
  99999160036050080339200899999001031720080294500899999001027100080246800899999001022190080196300899999001017010080143300899999001011580080087600899999001005880080029400899999001054140080570800899999001059960080627800899999001065530080682100899999001070830080733900899999001075880080783000899999001080650080829200899999001085120080872500899999162

/-- `pad_grid.npz`: `grid[5260, 0], grid[5260, 10], …, grid[5260, 5580]`. -/
def padGrid526 : Nat :=
  99999161036050070339200799999003031720070294500799999003027100070246800799999003022190070196300799999003017010070143300799999003011580070087600799999003005880070029400799999003054140070570800799999003059960070627800799999003065530070682100799999003070830070733900799999003075880070783000799999003080650070829200799999003085120070872500799999163

/-- `pad_grid.npz`: `grid[5270, 0], grid[5270, 10], …, grid[5270, 5580]`. -/
def padGrid527 : Nat :=
  999991620360500603392006033930029999900103173002031720060294500602946002999990010271100202710006024680060246900299999001022200020221900601963006019640029999900101702002017010060143300601434002999990010115900201158006008760060087700299999001005890020058800600294006002950029999900105415002054140060570800605709002999990010599700205996006062780060627900299999001065540020655300606821006068220029999900107084002070830060733900607340002999990010758900207588006078300060783100299999001080660020806500608292006082930029999900108513002085120060872500699999164

/-- `pad_grid.npz`: `grid[5280, 0], grid[5280, 10], …, grid[5280, 5580]`. -/
def padGrid528 : Nat :=
  999991640360500403392004033930049999900103173004031720040294500402946004999990010271100402710004024680040246900499999001022200040221900401963004019640049999900101702004017010040143300401434004999990010115900401158004008760040087700499999001005890040058800400294004002950049999900105415004054140040570800405709004999990010599700405996004062780040627900499999001065540040655300406821004068220049999900107084004070830040733900407340004999990010758900407588004078300040783100499999001080660040806500408292004082930049999900108513004085120040872500499999166

/-- `pad_grid.npz`: `grid[5290, 0], grid[5290, 10], …, grid[5290, 5580]`. -/
def padGrid529 : Nat :=
  999991660360500203392002033930069999900103173006031720020294500202946006999990010271100602710002024680020246900699999001022200060221900201963002019640069999900101702006017010020143300201434006999990010115900601158002008760020087700699999001005890060058800200294002002950069999900105415006054140020570800205709006999990010599700605996002062780020627900699999001065540060655300206821002068220069999900107084006070830020733900207340006999990010758900607588002078300020783100699999001080660060806500208292002082930069999900108513006085120020872500299999168

/-- `pad_grid.npz`: `grid[5300, 0], grid[5300, 10], …, grid[5300, 5580]`. -/
def padGrid530 : Nat :=
  9999916903393007999990010317300799999002029460079999900102711007999990020246900799999001022200079999900201964007999990010170200799999002014340079999900101159007999990020087700799999001005890079999900200295007999990010541500799999002057090079999900105997007999990020627900799999001065540079999900206822007999990010708400799999002073400079999900107589007999990020783100799999001080660079999900208293007999990010851300799999171

/-- `pad_grid.npz`: `grid[5310, 0], grid[5310, 10], …, grid[5310, 5580]`. -/
def padGrid531 : Nat :=
  9999916903393007999990010317300799999001029470010294600799999001027110070271200102470001024690079999900102220007022210010196500101964007999990010170200701703001014350010143400799999001011590070116000100878001008770079999900100589007005900010029600100295007999990010541500705416001057100010570900799999001059970070599800106280001062790079999900106554007065550010682300106822007999990010708400707085001073410010734000799999001075890070759000107832001078310079999900108066007080670019999900108293007999990010851300799999171

/-- `pad_grid.npz`: `grid[5320, 0], grid[5320, 10], …, grid[5320, 5580]`. -/
def padGrid532 : Nat :=
  9999917103393005999990010317300599999003029470030294600599999001027110050271200302470003024690059999900102220005022210030196500301964005999990010170200501703003014350030143400599999001011590050116000300878003008770059999900100589005005900030029600300295005999990010541500505416003057100030570900599999001059970050599800306280003062790059999900106554005065550030682300306822005999990010708400507085003073410030734000599999001075890050759000307832003078310059999900108066005080670039999900308293005999990010851300599999173

/-- `pad_grid.npz`: `grid[5330, 0], grid[5330, 10], …, grid[5330, 5580]`. -/
def padGrid533 : Nat :=
  9999917303393003999990010317300399999005029470050294600399999001027110030271200502470005024690039999900102220003022210050196500501964003999990010170200301703005014350050143400399999001011590030116000500878005008770039999900100589003005900050029600500295003999990010541500305416005057100050570900399999001059970030599800506280005062790039999900106554003065550050682300506822003999990010708400307085005073410050734000399999001075890030759000507832005078310039999900108066003080670059999900508293003999990010851300399999175

/-- `pad_grid.npz`: `grid[5340, 0], grid[5340, 10], …, grid[5340, 5580]`. -/
def padGrid534 : Nat :=
  9999917403393002999990010317300299999006029470060294600299999001027110020271200602470006024690029999900102220002022210060196500601964002999990010170200201703006014350060143400299999001011590020116000600878006008770029999900100589002005900060029600600295002999990010541500205416006057100060570900299999001059970020599800606280006062790029999900106554002065550060682300606822002999990010708400207085006073410060734000299999001075890020759000607832006078310029999900108066002080670069999900608293002999990010851300299999176

/-- `pad_grid.npz`: `grid[5350, 0], grid[5350, 10], …, grid[5350, 5580]`. -/
def padGrid535 : Nat :=
  9999918502947008999990010271200802470008999990010222100801965008999990010170300801435008999990010116000800878008999990010059000800296008999990010541600805710008999990010599800806280008999990010655500806823008999990010708500807341008999990010759000807832008999990010806700899999187

/-- `pad_grid.npz`: `grid[5360, 0], grid[5360, 10], …, grid[5360, 5580]`. -/
def padGrid536 : Nat :=
  99999185029470079999900202713001027120070247000702471001999990010222200102221007019650070196600199999001017040010170300701435007014360019999900101161001011600070087800700879001999990010059100100590007002960070029700199999001054170010541600705710007057110019999900105999001059980070628000706281001999990010655600106555007068230070682400199999001070860010708500707341007073420019999900107591001075900070783200707833001999990020806700799999187

/-- `pad_grid.npz`: `grid[5370, 0], grid[5370, 10], …, grid[5370, 5580]`. -/
def padGrid537 : Nat :=
  999991850294700599999004027130029999900102712005024700059999900102471002999990010222200299999001022210050196500599999001019660029999900101704002999990010170300501435005999990010143600299999001011610029999900101160005008780059999900100879002999990010059100299999001005900050029600599999001002970029999900105417002999990010541600505710005999990010571100299999001059990029999900105998005062800059999900106281002999990010655600299999001065550050682300599999001068240029999900107086002999990010708500507341005999990010734200299999001075910029999900107590005078320059999900107833002999990040806700599999187

/-- `pad_grid.npz`: `grid[5380, 0], grid[5380, 10], …, grid[5380, 5580]`. -/
def padGrid538 : Nat :=
  99999185029470049999900502713004027120040247000402471004999990010222200402221004019650040196600499999001017040040170300401435004014360049999900101161004011600040087800400879004999990010059100400590004002960040029700499999001054170040541600405710004057110049999900105999004059980040628000406281004999990010655600406555004068230040682400499999001070860040708500407341004073420049999900107591004075900040783200407833004999990050806700499999187

/-- `pad_grid.npz`: `grid[5390, 0], grid[5390, 10], …, grid[5390, 5580]`. -/
def padGrid539 : Nat :=
  99999185029470029999900702713006027120020247000202471006999990010222200602221002019650020196600699999001017040060170300201435002014360069999900101161006011600020087800200879006999990010059100600590002002960020029700699999001054170060541600205710002057110069999900105999006059980020628000206281006999990010655600606555002068230020682400699999001070860060708500207341002073420069999900107591006075900020783200207833006999990070806700299999187

/-- `pad_grid.npz`: `grid[5400, 0], grid[5400, 10], …, grid[5400, 5580]`. -/
def padGrid540 : Nat :=
  99999194027130080247100899999001022220080196600899999001017040080143600899999001011610080087900899999001005910080029700899999001054170080571100899999001059990080628100899999001065560080682400899999001070860080734200899999001075910080783300899999196

/-- `pad_grid.npz`: `grid[5410, 0], grid[5410, 10], …, grid[5410, 5580]`. -/
def padGrid541 : Nat :=
  9999919402713006999990040247100699999001022220069999900102223001019670019999900101966006999990010170400699999001017050010143700199999001014360069999900101161006999990010116200100880001999990010087900699999001005910069999900100592001002980019999900100297006999990010541700699999001054180010571200199999001057110069999900105999006999990010600000106282001999990010628100699999001065560069999900106557001068250019999900106824006999990010708600699999001070870010734300199999001073420069999900107591006999990040783300699999196

/-- `pad_grid.npz`: `grid[5420, 0], grid[5420, 10], …, grid[5420, 5580]`. -/
def padGrid542 : Nat :=
  99999194027130059999900602471005999990010222200502223003019670030196600599999001017040050170500301437003014360059999900101161005011620030088000300879005999990010059100500592003002980030029700599999001054170050541800305712003057110059999900105999005060000030628200306281005999990010655600506557003068250030682400599999001070860050708700307343003073420059999900107591005999990060783300599999196

/-- `pad_grid.npz`: `grid[5430, 0], grid[5430, 10], …, grid[5430, 5580]`. -/
def padGrid543 : Nat :=
  99999194027130039999901002471003999990010222200302223005019670050196600399999001017040030170500501437005014360039999900101161003011620050088000500879003999990010059100300592005002980050029700399999001054170030541800505712005057110039999900105999003060000050628200506281003999990010655600306557005068250050682400399999001070860030708700507343005073420039999900107591003999990100783300399999196

/-- `pad_grid.npz`: `grid[5440, 0], grid[5440, 10], …, grid[5440, 5580]`. -/
def padGrid544 : Nat :=
  99999194027130019999901402471001999990010222200102223007019670070196600199999001017040010170500701437007014360019999900101161001011620070088000700879001999990010059100100592007002980070029700199999001054170010541800705712007057110019999900105999001060000070628200706281001999990010655600106557007068250070682400199999001070860010708700707343007073420019999900107591001999990140783300199999196

/-- `pad_grid.npz`: `grid[5450, 0], grid[5450, 10], …, grid[5450, 5580]`. -/
def padGrid545 : Nat :=
  99999211022230080196700899999001017050080143700899999001011620080088000899999001005920080029800899999001054180080571200899999001060000080628200899999001065570080682500899999001070870080734300899999213

/-- `pad_grid.npz`: `grid[5460, 0], grid[5460, 10], …, grid[5460, 5580]`. -/
def padGrid546 : Nat :=
  999992120222300701967007999990030170500701437007999990020116300101162007008800070088100199999001005930010059200700298007002990019999900105419001054180070571200705713001999990010600100106000007062820070628300199999002065570070682500799999003070870070734300799999214

/-- `pad_grid.npz`: `grid[5470, 0], grid[5470, 10], …, grid[5470, 5580]`. -/
def padGrid547 : Nat :=
  999992140222300501967005999990070170500501437005999990040116300301162005008800050088100399999001005930030059200500298005002990039999900105419003054180050571200505713003999990010600100306000005062820050628300399999004065570050682500599999007070870050734300599999216

/-- `pad_grid.npz`: `grid[5480, 0], grid[5480, 10], …, grid[5480, 5580]`. -/
def padGrid548 : Nat :=
  999992160222300301967003999990110170500301437003999990060116300501162003008800030088100599999001005930050059200300298003002990059999900105419005054180030571200305713005999990010600100506000003062820030628300599999006065570030682500399999011070870030734300399999218

/-- `pad_grid.npz`: `grid[5490, 0], grid[5490, 10], …, grid[5490, 5580]`. -/
def padGrid549 : Nat :=
  999992170222300201967002999990130170500201437002999990070116300601162002008800020088100699999001005930060059200200298002002990069999900105419006054180020571200205713006999990010600100606000002062820020628300699999007065570020682500299999013070870020734300299999219

/-- `pad_grid.npz`: `grid[5500, 0], grid[5500, 10], …, grid[5500, 5580]`. -/
def padGrid550 : Nat :=
  99999245011630080088100899999001005930080029900899999001054190080571300899999001060010080628300899999247

/-- `pad_grid.npz`: `grid[5510, 0], grid[5510, 10], …, grid[5510, 5580]`. -/
def padGrid551 : Nat :=
  9999924501163006999990040088100699999001005930069999900400299006999990010541900699999004057130069999900106001006999990040628300699999247

/-- `pad_grid.npz`: `grid[5520, 0], grid[5520, 10], …, grid[5520, 5580]`. -/
def padGrid552 : Nat :=
  9999924501163004999990080088100499999001005930049999900800299004999990010541900499999008057130049999900106001004999990080628300499999247

/-- `pad_grid.npz`: `grid[5530, 0], grid[5530, 10], …, grid[5530, 5580]`. -/
def padGrid553 : Nat :=
  9999924501163003999990100088100399999001005930039999901000299003999990010541900399999010057130039999900106001003999990100628300399999247

/-- `pad_grid.npz`: `grid[5540, 0], grid[5540, 10], …, grid[5540, 5580]`. -/
def padGrid554 : Nat :=
  9999924501163001999990140088100199999001005930019999901400299001999990010541900199999014057130019999900106001001999990140628300199999247

/-- `pad_grid.npz`: `grid[5550, 0], grid[5550, 10], …, grid[5550, 5580]`. -/
def padGrid555 : Nat :=
  99999559

/-- `pad_grid.npz`: `grid[5560, 0], grid[5560, 10], …, grid[5560, 5580]`. -/
def padGrid556 : Nat :=
  99999559

/-- `pad_grid.npz`: `grid[5570, 0], grid[5570, 10], …, grid[5570, 5580]`. -/
def padGrid557 : Nat :=
  99999559

/-- `pad_grid.npz`: `grid[5580, 0], grid[5580, 10], …, grid[5580, 5580]`. -/
def padGrid558 : Nat :=
  99999559

/-- The rows, 24 rows per list. -/
def padGridRows : List (List Nat) := [
  [padGrid0, padGrid1, padGrid2, padGrid3, padGrid4, padGrid5, padGrid6, padGrid7,
   padGrid8, padGrid9, padGrid10, padGrid11, padGrid12, padGrid13, padGrid14, padGrid15,
   padGrid16, padGrid17, padGrid18, padGrid19, padGrid20, padGrid21, padGrid22, padGrid23],
  [padGrid24, padGrid25, padGrid26, padGrid27, padGrid28, padGrid29, padGrid30, padGrid31,
   padGrid32, padGrid33, padGrid34, padGrid35, padGrid36, padGrid37, padGrid38, padGrid39,
   padGrid40, padGrid41, padGrid42, padGrid43, padGrid44, padGrid45, padGrid46, padGrid47],
  [padGrid48, padGrid49, padGrid50, padGrid51, padGrid52, padGrid53, padGrid54, padGrid55,
   padGrid56, padGrid57, padGrid58, padGrid59, padGrid60, padGrid61, padGrid62, padGrid63,
   padGrid64, padGrid65, padGrid66, padGrid67, padGrid68, padGrid69, padGrid70, padGrid71],
  [padGrid72, padGrid73, padGrid74, padGrid75, padGrid76, padGrid77, padGrid78, padGrid79,
   padGrid80, padGrid81, padGrid82, padGrid83, padGrid84, padGrid85, padGrid86, padGrid87,
   padGrid88, padGrid89, padGrid90, padGrid91, padGrid92, padGrid93, padGrid94, padGrid95],
  [padGrid96, padGrid97, padGrid98, padGrid99, padGrid100, padGrid101, padGrid102, padGrid103,
   padGrid104, padGrid105, padGrid106, padGrid107, padGrid108, padGrid109, padGrid110, padGrid111,
   padGrid112, padGrid113, padGrid114, padGrid115, padGrid116, padGrid117, padGrid118, padGrid119],
  [padGrid120, padGrid121, padGrid122, padGrid123, padGrid124, padGrid125, padGrid126, padGrid127,
   padGrid128, padGrid129, padGrid130, padGrid131, padGrid132, padGrid133, padGrid134, padGrid135,
   padGrid136, padGrid137, padGrid138, padGrid139, padGrid140, padGrid141, padGrid142, padGrid143],
  [padGrid144, padGrid145, padGrid146, padGrid147, padGrid148, padGrid149, padGrid150, padGrid151,
   padGrid152, padGrid153, padGrid154, padGrid155, padGrid156, padGrid157, padGrid158, padGrid159,
   padGrid160, padGrid161, padGrid162, padGrid163, padGrid164, padGrid165, padGrid166, padGrid167],
  [padGrid168, padGrid169, padGrid170, padGrid171, padGrid172, padGrid173, padGrid174, padGrid175,
   padGrid176, padGrid177, padGrid178, padGrid179, padGrid180, padGrid181, padGrid182, padGrid183,
   padGrid184, padGrid185, padGrid186, padGrid187, padGrid188, padGrid189, padGrid190, padGrid191],
  [padGrid192, padGrid193, padGrid194, padGrid195, padGrid196, padGrid197, padGrid198, padGrid199,
   padGrid200, padGrid201, padGrid202, padGrid203, padGrid204, padGrid205, padGrid206, padGrid207,
   padGrid208, padGrid209, padGrid210, padGrid211, padGrid212, padGrid213, padGrid214, padGrid215],
  [padGrid216, padGrid217, padGrid218, padGrid219, padGrid220, padGrid221, padGrid222, padGrid223,
   padGrid224, padGrid225, padGrid226, padGrid227, padGrid228, padGrid229, padGrid230, padGrid231,
   padGrid232, padGrid233, padGrid234, padGrid235, padGrid236, padGrid237, padGrid238, padGrid239],
  [padGrid240, padGrid241, padGrid242, padGrid243, padGrid244, padGrid245, padGrid246, padGrid247,
   padGrid248, padGrid249, padGrid250, padGrid251, padGrid252, padGrid253, padGrid254, padGrid255,
   padGrid256, padGrid257, padGrid258, padGrid259, padGrid260, padGrid261, padGrid262, padGrid263],
  [padGrid264, padGrid265, padGrid266, padGrid267, padGrid268, padGrid269, padGrid270, padGrid271,
   padGrid272, padGrid273, padGrid274, padGrid275, padGrid276, padGrid277, padGrid278, padGrid279,
   padGrid280, padGrid281, padGrid282, padGrid283, padGrid284, padGrid285, padGrid286, padGrid287],
  [padGrid288, padGrid289, padGrid290, padGrid291, padGrid292, padGrid293, padGrid294, padGrid295,
   padGrid296, padGrid297, padGrid298, padGrid299, padGrid300, padGrid301, padGrid302, padGrid303,
   padGrid304, padGrid305, padGrid306, padGrid307, padGrid308, padGrid309, padGrid310, padGrid311],
  [padGrid312, padGrid313, padGrid314, padGrid315, padGrid316, padGrid317, padGrid318, padGrid319,
   padGrid320, padGrid321, padGrid322, padGrid323, padGrid324, padGrid325, padGrid326, padGrid327,
   padGrid328, padGrid329, padGrid330, padGrid331, padGrid332, padGrid333, padGrid334, padGrid335],
  [padGrid336, padGrid337, padGrid338, padGrid339, padGrid340, padGrid341, padGrid342, padGrid343,
   padGrid344, padGrid345, padGrid346, padGrid347, padGrid348, padGrid349, padGrid350, padGrid351,
   padGrid352, padGrid353, padGrid354, padGrid355, padGrid356, padGrid357, padGrid358, padGrid359],
  [padGrid360, padGrid361, padGrid362, padGrid363, padGrid364, padGrid365, padGrid366, padGrid367,
   padGrid368, padGrid369, padGrid370, padGrid371, padGrid372, padGrid373, padGrid374, padGrid375,
   padGrid376, padGrid377, padGrid378, padGrid379, padGrid380, padGrid381, padGrid382, padGrid383],
  [padGrid384, padGrid385, padGrid386, padGrid387, padGrid388, padGrid389, padGrid390, padGrid391,
   padGrid392, padGrid393, padGrid394, padGrid395, padGrid396, padGrid397, padGrid398, padGrid399,
   padGrid400, padGrid401, padGrid402, padGrid403, padGrid404, padGrid405, padGrid406, padGrid407],
  [padGrid408, padGrid409, padGrid410, padGrid411, padGrid412, padGrid413, padGrid414, padGrid415,
   padGrid416, padGrid417, padGrid418, padGrid419, padGrid420, padGrid421, padGrid422, padGrid423,
   padGrid424, padGrid425, padGrid426, padGrid427, padGrid428, padGrid429, padGrid430, padGrid431],
  [padGrid432, padGrid433, padGrid434, padGrid435, padGrid436, padGrid437, padGrid438, padGrid439,
   padGrid440, padGrid441, padGrid442, padGrid443, padGrid444, padGrid445, padGrid446, padGrid447,
   padGrid448, padGrid449, padGrid450, padGrid451, padGrid452, padGrid453, padGrid454, padGrid455],
  [padGrid456, padGrid457, padGrid458, padGrid459, padGrid460, padGrid461, padGrid462, padGrid463,
   padGrid464, padGrid465, padGrid466, padGrid467, padGrid468, padGrid469, padGrid470, padGrid471,
   padGrid472, padGrid473, padGrid474, padGrid475, padGrid476, padGrid477, padGrid478, padGrid479],
  [padGrid480, padGrid481, padGrid482, padGrid483, padGrid484, padGrid485, padGrid486, padGrid487,
   padGrid488, padGrid489, padGrid490, padGrid491, padGrid492, padGrid493, padGrid494, padGrid495,
   padGrid496, padGrid497, padGrid498, padGrid499, padGrid500, padGrid501, padGrid502, padGrid503],
  [padGrid504, padGrid505, padGrid506, padGrid507, padGrid508, padGrid509, padGrid510, padGrid511,
   padGrid512, padGrid513, padGrid514, padGrid515, padGrid516, padGrid517, padGrid518, padGrid519,
   padGrid520, padGrid521, padGrid522, padGrid523, padGrid524, padGrid525, padGrid526, padGrid527],
  [padGrid528, padGrid529, padGrid530, padGrid531, padGrid532, padGrid533, padGrid534, padGrid535,
   padGrid536, padGrid537, padGrid538, padGrid539, padGrid540, padGrid541, padGrid542, padGrid543,
   padGrid544, padGrid545, padGrid546, padGrid547, padGrid548, padGrid549, padGrid550, padGrid551],
  [padGrid552, padGrid553, padGrid554, padGrid555, padGrid556, padGrid557, padGrid558]]

end Verif.Data
