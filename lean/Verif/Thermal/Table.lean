/-!
# The tables of the bosonic thermal function for negative squared masses

`NegLinearIntTransposed`, include/BSMPT/ThermalFunctions/NegativeBosonSpline.h:30-710, and `NegLinearInt`,
src/ThermalFunctions/NegativeBosonSpline.cpp:16-1017, as integers: the ordinates of the first in units of
10⁻⁶, those of the second in units of 10⁻¹⁰, in pieces of one hundred.
-/

namespace Verif.Thermal.Table

/-- The abscissae, `NegLinearIntTransposed[0]`, NegativeBosonSpline.h:30-281: the numbers 0 … 3000 in turn. -/
def abscissae : List Int := (List.range 3001).map Int.ofNat

/-- The first entries of `NegLinearInt`, NegativeBosonSpline.cpp:16-1017: the numbers 0 … −3000 in turn. -/
def pairAbscissae : List Int := (List.range 3001).map fun i => -Int.ofNat i

def v00 : List Int :=
  [-2164650, -2818450, -3222850, -3428920, -3464850, -3351030, -3103760, -2736810, -2262260,
   -1691000, -1033020, -297651, 506268, 1370290, 2286260, 3246220, 4242340, 5266890, 6312140,
   7370340, 8433660, 9494100, 10543500, 11573400, 12575000, 13539200, 14456100, 15315500,
   16106100, 16815800, 17431100, 17937100, 18316500, 18549400, 18612000, 18474800, 18099400,
   17432700, 16391600, 14810700, 12166200, 9298730, 6552970, 3926940, 1418700, -973639, -3251950,
   -5418070, -7473830, -9421010, -11261400, -12996700, -14628800, -16159200, -17589700,
   -18922000, -20157800, -21298600, -22346200, -23302100, -24167900, -24945400, -25636000,
   -26241300, -26762900, -27202400, -27561300, -27841100, -28043500, -28169900, -28221800,
   -28200800, -28108500, -27946200, -27715600, -27418100, -27055300, -26628700, -26139700,
   -25589900, -24980800, -24313800, -23590600, -22812600, -21981400, -21098400, -20165100,
   -19183200, -18154200, -17079500, -15960800, -14799500, -13597300, -12355800, -11076400,
   -9760910, -8410800, -7027730, -5613320, -4169220]

def v01 : List Int :=
  [-2697100, -1198640, 324478, 1870530, 3437780, 5024480, 6628840, 8249070, 9883340, 11529800,
   13186500, 14851700, 16523200, 18199200, 19877700, 21556500, 23233600, 24906900, 26574100,
   28232900, 29881200, 31516500, 33136400, 34738400, 36320000, 37878500, 39411200, 40915200,
   42387800, 43825700, 45226000, 46585200, 47900100, 49167000, 50382200, 51541800, 52641600,
   53677300, 54644300, 55537600, 56351900, 57081800, 57721000, 58263000, 58700700, 59026300,
   59231100, 59305400, 59238300, 59017600, 58628900, 58055400, 57276700, 56268000, 54996700,
   53418900, 51468900, 49031500, 45741300, 41626200, 37600000, 33662300, 29812300, 26049500,
   22373200, 18782900, 15277900, 11857600, 8521360, 5268630, 2098770, -988822, -3994760,
   -6919650, -9764090, -12528700, -15214100, -17820900, -20349600, -22800900, -25175400,
   -27473800, -29696500, -31844200, -33917500, -35917000, -37843400, -39697100, -41478900,
   -43189300, -44828900, -46398300, -47898100, -49329000, -50691500, -51986300, -53213900,
   -54374900, -55470000, -56499800]

def v02 : List Int :=
  [-57464800, -58365700, -59203000, -59977400, -60689600, -61340000, -61929300, -62458200,
   -62927200, -63336900, -63688000, -63981000, -64216700, -64395600, -64518200, -64585400,
   -64597500, -64555400, -64459600, -64310700, -64109400, -63856300, -63551900, -63197100,
   -62792300, -62338300, -61835600, -61284900, -60686800, -60042000, -59351200, -58614900,
   -57833900, -57008700, -56140100, -55228700, -54275100, -53280100, -52244300, -51168300,
   -50052800, -48898600, -47706200, -46476400, -45209900, -43907300, -42569400, -41196800,
   -39790300, -38350500, -36878100, -35373900, -33838700, -32273000, -30677700, -29053400,
   -27401000, -25721100, -24014600, -22282100, -20524400, -18742200, -16936500, -15107900,
   -13257200, -11385200, -9492670, -7580490, -5649420, -3700290, -1733930, 248825, 2247140,
   4260160, 6287030, 8326870, 10378800, 12442000, 14515400, 16598300, 18689600, 20788500,
   22894000, 25005200, 27121100, 29240600, 31362900, 33486900, 35611600, 37735900, 39858900,
   41979400, 44096400, 46208700, 48315200, 50414900, 52506500, 54588800, 56660700, 58721000]

def v03 : List Int :=
  [60768400, 62801500, 64819300, 66820200, 68803000, 70766300, 72708600, 74628600, 76524800,
   78395500, 80239400, 82054700, 83840000, 85593400, 87313200, 88997800, 90645300, 92253500,
   93820900, 95345300, 96824600, 98256700, 99639300, 100970000, 102247000, 103467000, 104627000,
   105726000, 106759000, 107725000, 108619000, 109440000, 110182000, 110843000, 111418000,
   111903000, 112294000, 112587000, 112775000, 112853000, 112816000, 112657000, 112368000,
   111941000, 111368000, 110639000, 109742000, 108664000, 107389000, 105900000, 104173000,
   102179000, 99881000, 97223000, 94115600, 90363900, 85477400, 80487400, 75570400, 70726300,
   65954600, 61255000, 56627300, 52071200, 47586200, 43172000, 38828500, 34555100, 30351700,
   26217900, 22153300, 18157700, 14230700, 10372000, 6581290, 2858240, -797470, -4386160,
   -7908160, -11363800, -14753400, -18077200, -21335700, -24529000, -27657700, -30721800,
   -33721900, -36658200, -39531100, -42340800, -45087700, -47772100, -50394400, -52954800,
   -55453800, -57891600, -60267700, -62584900, -64841200, -67037500]

def v04 : List Int :=
  [-69174400, -71252000, -73270800, -75231100, -77133100, -78977300, -80763900, -82493300,
   -84165800, -85781800, -87341600, -88845500, -90293900, -91687000, -93025300, -94309100,
   -95538700, -96714300, -97836500, -98905600, -99921700, -100885000, -101797000, -102657000,
   -103465000, -104222000, -104928000, -105584000, -106190000, -106746000, -107253000,
   -107710000, -108119000, -108480000, -108792000, -109057000, -109275000, -109445000,
   -109569000, -109647000, -109679000, -109665000, -109606000, -109503000, -109355000,
   -109162000, -108926000, -108647000, -108325000, -107960000, -107553000, -107103000,
   -106613000, -106081000, -105508000, -104895000, -104242000, -103549000, -102817000,
   -102046000, -101236000, -100388000, -99502700, -98579600, -97619500, -96622800, -95589800,
   -94520900, -93416500, -92277000, -91102800, -89894400, -88651900, -87376000, -86067000,
   -84725200, -83351100, -81945100, -80507600, -79039000, -77539700, -76010200, -74450700,
   -72861800, -71243900, -69597400, -67922700, -66220200, -64490300, -62733600, -60950300,
   -59141000, -57306100, -55446000, -53561200, -51652000, -49719000, -47762600, -45783300,
   -43781400]

def v05 : List Int :=
  [-41757500, -39712100, -37645400, -35558100, -33450700, -31323400, -29177000, -27011700,
   -24828200, -22626800, -20408100, -18172600, -15920700, -13653000, -11369900, -9072000,
   -6759740, -4433660, -2094270, 257911, 2622360, 4998540, 7385920, 9783970, 12192100, 14609900,
   17036700, 19471900, 21915000, 24365500, 26822800, 29286200, 31755200, 34229300, 36707700,
   39190000, 41675500, 44163700, 46653700, 49145200, 51637300, 54129500, 56621200, 59111600,
   61600100, 64086100, 66568800, 69047600, 71521800, 73990600, 76453400, 78909400, 81357900,
   83798200, 86229500, 88651000, 91061900, 93461500, 95849000, 98223500, 100584000, 102930000,
   105261000, 107576000, 109873000, 112152000, 114412000, 116652000, 118871000, 121069000,
   123243000, 125394000, 127520000, 129620000, 131693000, 133738000, 135755000, 137740000,
   139695000, 141616000, 143504000, 145357000, 147174000, 148953000, 150693000, 152393000,
   154051000, 155666000, 157236000, 158760000, 160236000, 161663000, 163038000, 164361000,
   165629000, 166841000, 167994000, 169087000, 170117000, 171082000]

def v06 : List Int :=
  [171981000, 172810000, 173567000, 174250000, 174856000, 175382000, 175826000, 176183000,
   176451000, 176626000, 176705000, 176683000, 176557000, 176321000, 175971000, 175502000,
   174907000, 174181000, 173317000, 172307000, 171142000, 169814000, 168311000, 166620000,
   164729000, 162619000, 160269000, 157653000, 154737000, 151473000, 147787000, 143539000,
   138236000, 132442000, 126711000, 121044000, 115441000, 109900000, 104423000, 99007600,
   93655100, 88364900, 83136800, 77970500, 72865900, 67822800, 62841000, 57920200, 53060300,
   48261100, 43522300, 38843700, 34225200, 29666600, 25167500, 20727900, 16347600, 12026200,
   7763650, 3559710, -585837, -4673190, -8702550, -12674100, -16588100, -20444800, -24244300,
   -27986800, -31672600, -35301900, -38874800, -42391600, -45852600, -49257800, -52607500,
   -55902000, -59141300, -62325900, -65455700, -68531200, -71552400, -74519600, -77433000,
   -80292800, -83099200, -85852500, -88552800, -91200400, -93795400, -96338100, -98828800,
   -101268000, -103655000, -105990000, -108275000, -110508000, -112690000, -114822000,
   -116904000, -118935000]

def v07 : List Int :=
  [-120917000, -122849000, -124731000, -126564000, -128348000, -130083000, -131769000,
   -133407000, -134997000, -136539000, -138033000, -139480000, -140879000, -142231000,
   -143536000, -144795000, -146007000, -147173000, -148294000, -149368000, -150397000,
   -151380000, -152319000, -153213000, -154062000, -154866000, -155627000, -156343000,
   -157016000, -157646000, -158232000, -158775000, -159276000, -159734000, -160149000,
   -160523000, -160854000, -161144000, -161393000, -161600000, -161767000, -161893000,
   -161978000, -162024000, -162029000, -161995000, -161921000, -161808000, -161656000,
   -161465000, -161235000, -160967000, -160662000, -160318000, -159937000, -159519000,
   -159063000, -158571000, -158042000, -157477000, -156876000, -156238000, -155566000,
   -154858000, -154115000, -153337000, -152524000, -151677000, -150796000, -149882000,
   -148934000, -147952000, -146937000, -145890000, -144810000, -143698000, -142554000,
   -141378000, -140170000, -138932000, -137662000, -136362000, -135031000, -133670000,
   -132279000, -130859000, -129409000, -127930000, -126423000, -124887000, -123322000,
   -121730000, -120109000, -118462000, -116787000, -115085000, -113357000, -111603000,
   -109822000, -108016000]

def v08 : List Int :=
  [-106184000, -104327000, -102445000, -100539000, -98607800, -96653000, -94674500, -92672500,
   -90647300, -88599300, -86528800, -84436000, -82321300, -80184900, -78027200, -75848500,
   -73649000, -71429100, -69189000, -66929200, -64649900, -62351400, -60034100, -57698100,
   -55344000, -52972000, -50582400, -48175500, -45751700, -43311300, -40854700, -38382000,
   -35893800, -33390300, -30871900, -28338900, -25791600, -23230400, -20655700, -18067700,
   -15466900, -12853500, -10228000, -7590730, -4941980, -2282160, 388381, 3069270, 5760140,
   8460620, 11170300, 13888900, 16616000, 19351100, 22094000, 24844200, 27601300, 30364900,
   33134800, 35910300, 38691200, 41477000, 44267300, 47061800, 49859900, 52661400, 55465600,
   58272300, 61081000, 63891300, 66702700, 69514700, 72327000, 75139100, 77950500, 80760800,
   83569400, 86376100, 89180200, 91981300, 94778800, 97572500, 100362000, 103146000, 105925000,
   108697000, 111464000, 114223000, 116975000, 119718000, 122453000, 125179000, 127896000,
   130602000, 133297000, 135981000, 138653000, 141312000, 143958000, 146591000]

def v09 : List Int :=
  [149209000, 151812000, 154400000, 156971000, 159526000, 162063000, 164582000, 167082000,
   169563000, 172024000, 174463000, 176881000, 179277000, 181650000, 183999000, 186323000,
   188622000, 190895000, 193141000, 195359000, 197549000, 199709000, 201839000, 203938000,
   206005000, 208039000, 210039000, 212004000, 213933000, 215826000, 217680000, 219496000,
   221272000, 223007000, 224700000, 226350000, 227955000, 229515000, 231028000, 232492000,
   233907000, 235272000, 236584000, 237843000, 239047000, 240194000, 241283000, 242312000,
   243280000, 244185000, 245025000, 245799000, 246504000, 247138000, 247699000, 248186000,
   248595000, 248925000, 249173000, 249336000, 249412000, 249398000, 249290000, 249087000,
   248783000, 248376000, 247862000, 247236000, 246495000, 245634000, 244646000, 243528000,
   242273000, 240874000, 239324000, 237615000, 235738000, 233682000, 231436000, 228986000,
   226316000, 223406000, 220232000, 216762000, 212954000, 208744000, 204020000, 198451000,
   191954000, 185514000, 179131000, 172804000, 166535000, 160322000, 154165000, 148065000,
   142021000, 136033000, 130101000, 124225000]

def v10 : List Int :=
  [118404000, 112638000, 106929000, 101274000, 95674000, 90129200, 84639000, 79203500, 73822500,
   68495700, 63223100, 58004600, 52839900, 47729000, 42671600, 37667700, 32717100, 27819600,
   22975200, 18183600, 13444700, 8758400, 4124520, -457087, -4986560, -9464050, -13889700,
   -18263700, -22586100, -26857100, -31076900, -35245600, -39363300, -43430200, -47446500,
   -51412200, -55327600, -59192800, -63007900, -66773100, -70488600, -74154400, -77770800,
   -81337800, -84855700, -88324600, -91744600, -95115900, -98438600, -101713000, -104939000,
   -108117000, -111247000, -114329000, -117364000, -120351000, -123290000, -126183000,
   -129028000, -131827000, -134579000, -137284000, -139943000, -142555000, -145122000,
   -147642000, -150117000, -152546000, -154929000, -157267000, -159560000, -161808000,
   -164011000, -166170000, -168283000, -170353000, -172378000, -174359000, -176296000,
   -178189000, -180039000, -181845000, -183608000, -185327000, -187004000, -188638000,
   -190229000, -191778000, -193285000, -194749000, -196171000, -197551000, -198890000,
   -200187000, -201443000, -202657000, -203830000, -204963000, -206055000, -207106000]

def v11 : List Int :=
  [-208117000, -209087000, -210018000, -210908000, -211759000, -212571000, -213342000,
   -214075000, -214769000, -215423000, -216039000, -216616000, -217155000, -217656000,
   -218118000, -218543000, -218930000, -219279000, -219591000, -219866000, -220104000,
   -220304000, -220468000, -220596000, -220687000, -220742000, -220761000, -220744000,
   -220691000, -220603000, -220479000, -220321000, -220127000, -219898000, -219635000,
   -219338000, -219006000, -218640000, -218240000, -217806000, -217339000, -216839000,
   -216305000, -215738000, -215138000, -214506000, -213841000, -213144000, -212414000,
   -211653000, -210860000, -210036000, -209180000, -208292000, -207374000, -206425000,
   -205445000, -204435000, -203395000, -202324000, -201224000, -200094000, -198934000,
   -197745000, -196527000, -195279000, -194003000, -192699000, -191366000, -190005000,
   -188616000, -187199000, -185755000, -184283000, -182784000, -181257000, -179705000,
   -178125000, -176519000, -174887000, -173229000, -171544000, -169835000, -168100000,
   -166339000, -164554000, -162744000, -160909000, -159050000, -157166000, -155259000,
   -153328000, -151373000, -149395000, -147394000, -145370000, -143323000, -141253000,
   -139162000, -137048000]

def v12 : List Int :=
  [-134912000, -132754000, -130576000, -128376000, -126154000, -123912000, -121650000,
   -119367000, -117064000, -114741000, -112399000, -110036000, -107655000, -105255000,
   -102836000, -100398000, -97941900, -95467600, -92975600, -90465900, -87938800, -85394500,
   -82833300, -80255300, -77660900, -75050300, -72423600, -69781200, -67123300, -64450100,
   -61761900, -59058800, -56341300, -53609400, -50863600, -48103900, -45330600, -42544100,
   -39744500, -36932200, -34107300, -31270200, -28421000, -25560100, -22687600, -19804000,
   -16909400, -14004100, -11088300, -8162420, -5226610, -2281180, 673600, 3637460, 6610110,
   9591280, 12580700, 15578100, 18583100, 21595600, 24615100, 27641500, 30674500, 33713500,
   36758600, 39809300, 42865400, 45926500, 48992400, 52062700, 55137100, 58215400, 61297200,
   64382200, 67470100, 70560600, 73653300, 76748000, 79844300, 82941800, 86040400, 89139500,
   92239000, 95338400, 98437500, 101536000, 104633000, 107729000, 110823000, 113915000,
   117004000, 120091000, 123175000, 126255000, 129331000, 132402000, 135469000, 138532000,
   141588000, 144639000]

def v13 : List Int :=
  [147684000, 150722000, 153753000, 156776000, 159792000, 162800000, 165799000, 168789000,
   171770000, 174741000, 177702000, 180651000, 183590000, 186517000, 189432000, 192335000,
   195225000, 198101000, 200964000, 203812000, 206645000, 209463000, 212265000, 215051000,
   217820000, 220572000, 223306000, 226022000, 228719000, 231396000, 234054000, 236691000,
   239307000, 241902000, 244475000, 247024000, 249551000, 252053000, 254531000, 256984000,
   259411000, 261812000, 264186000, 266532000, 268849000, 271138000, 273397000, 275626000,
   277823000, 279989000, 282122000, 284222000, 286288000, 288318000, 290314000, 292273000,
   294194000, 296078000, 297922000, 299727000, 301491000, 303213000, 304893000, 306529000,
   308121000, 309667000, 311167000, 312619000, 314023000, 315377000, 316680000, 317931000,
   319129000, 320272000, 321360000, 322390000, 323363000, 324276000, 325127000, 325916000,
   326641000, 327301000, 327893000, 328416000, 328868000, 329248000, 329554000, 329784000,
   329935000, 330006000, 329994000, 329897000, 329713000, 329439000, 329073000, 328611000,
   328051000, 327390000, 326624000, 325750000]

def v14 : List Int :=
  [324764000, 323662000, 322440000, 321094000, 319617000, 318006000, 316253000, 314353000,
   312299000, 310082000, 307695000, 305126000, 302365000, 299399000, 296212000, 292785000,
   289096000, 285116000, 280804000, 276106000, 270926000, 265050000, 258031000, 250953000,
   243928000, 236955000, 230034000, 223165000, 216348000, 209582000, 202868000, 196206000,
   189594000, 183034000, 176525000, 170067000, 163660000, 157304000, 150998000, 144744000,
   138539000, 132385000, 126281000, 120228000, 114224000, 108270000, 102367000, 96512500,
   90708000, 84953000, 79247400, 73591100, 67983900, 62425800, 56916700, 51456500, 46044900,
   40682000, 35367700, 30101700, 24884000, 19714500, 14593100, 9519670, 4494080, -483758,
   -5413960, -10296600, -15131900, -19919900, -24660700, -29354300, -34001100, -38601000,
   -43154100, -47660600, -52120600, -56534100, -60901400, -65222500, -69497500, -73726600,
   -77909800, -82047300, -86139200, -90185500, -94186500, -98142200, -102053000, -105918000,
   -109739000, -113514000, -117245000, -120932000, -124574000, -128171000, -131725000,
   -135234000, -138699000, -142120000]

def v15 : List Int :=
  [-145498000, -148832000, -152122000, -155369000, -158572000, -161732000, -164850000,
   -167924000, -170955000, -173944000, -176890000, -179793000, -182654000, -185473000,
   -188249000, -190984000, -193677000, -196327000, -198937000, -201504000, -204030000,
   -206515000, -208959000, -211361000, -213723000, -216043000, -218323000, -220563000,
   -222761000, -224920000, -227038000, -229116000, -231154000, -233152000, -235111000,
   -237029000, -238909000, -240748000, -242549000, -244310000, -246032000, -247716000,
   -249360000, -250966000, -252534000, -254063000, -255553000, -257006000, -258420000,
   -259796000, -261135000, -262436000, -263699000, -264925000, -266114000, -267265000,
   -268380000, -269457000, -270498000, -271502000, -272469000, -273400000, -274294000,
   -275153000, -275975000, -276762000, -277512000, -278227000, -278907000, -279551000,
   -280160000, -280733000, -281272000, -281776000, -282244000, -282679000, -283079000,
   -283444000, -283775000, -284072000, -284335000, -284564000, -284760000, -284922000,
   -285050000, -285145000, -285207000, -285236000, -285232000, -285195000, -285125000,
   -285023000, -284889000, -284722000, -284523000, -284292000, -284029000, -283735000,
   -283409000, -283051000]

def v16 : List Int :=
  [-282662000, -282242000, -281791000, -281309000, -280797000, -280253000, -279680000,
   -279075000, -278441000, -277777000, -277082000, -276358000, -275604000, -274821000,
   -274008000, -273166000, -272295000, -271395000, -270467000, -269509000, -268523000,
   -267509000, -266466000, -265396000, -264297000, -263171000, -262017000, -260835000,
   -259626000, -258390000, -257127000, -255836000, -254519000, -253176000, -251806000,
   -250409000, -248987000, -247538000, -246064000, -244563000, -243037000, -241486000,
   -239910000, -238308000, -236681000, -235030000, -233353000, -231653000, -229927000,
   -228178000, -226405000, -224607000, -222786000, -220942000, -219074000, -217182000,
   -215268000, -213330000, -211370000, -209387000, -207381000, -205353000, -203303000,
   -201231000, -199137000, -197022000, -194885000, -192726000, -190547000, -188346000,
   -186124000, -183882000, -181619000, -179336000, -177032000, -174709000, -172365000,
   -170002000, -167619000, -165217000, -162796000, -160356000, -157897000, -155419000,
   -152922000, -150407000, -147874000, -145323000, -142755000, -140168000, -137564000,
   -134943000, -132305000, -129649000, -126977000, -124288000, -121583000, -118862000,
   -116125000, -113371000]

def v17 : List Int :=
  [-110602000, -107818000, -105018000, -102203000, -99373300, -96528600, -93669400, -90795700,
   -87907900, -85006000, -82090400, -79161000, -76218300, -73262300, -70293200, -67311300,
   -64316700, -61309600, -58290200, -55258800, -52215500, -49160400, -46094000, -43016200,
   -39927300, -36827600, -33717200, -30596300, -27465200, -24324000, -21172900, -18012200,
   -14842100, -11662800, -8474400, -5277240, -2071510, 1142600, 4364860, 7595060, 10833000,
   14078400, 17331100, 20590800, 23857400, 27130600, 30410200, 33695900, 36987600, 40285000,
   43587800, 46895900, 50209000, 53526900, 56849300, 60176000, 63506800, 66841400, 70179600,
   73521100, 76865700, 80213200, 83563300, 86915800, 90270300, 93626700, 96984700, 100344000,
   103705000, 107066000, 110428000, 113790000, 117152000, 120514000, 123876000, 127237000,
   130596000, 133955000, 137312000, 140667000, 144020000, 147370000, 150718000, 154063000,
   157405000, 160743000, 164078000, 167408000, 170734000, 174055000, 177371000, 180682000,
   183987000, 187286000, 190579000, 193865000, 197145000, 200418000, 203683000, 206940000]

def v18 : List Int :=
  [210189000, 213429000, 216661000, 219884000, 223097000, 226300000, 229494000, 232676000,
   235848000, 239009000, 242158000, 245295000, 248420000, 251533000, 254632000, 257718000,
   260790000, 263849000, 266892000, 269921000, 272934000, 275932000, 278914000, 281879000,
   284827000, 287758000, 290672000, 293567000, 296443000, 299301000, 302139000, 304957000,
   307755000, 310532000, 313287000, 316021000, 318733000, 321422000, 324088000, 326730000,
   329349000, 331942000, 334511000, 337053000, 339570000, 342059000, 344522000, 346957000,
   349363000, 351740000, 354088000, 356406000, 358693000, 360949000, 363173000, 365366000,
   367523000, 369647000, 371738000, 373793000, 375812000, 377795000, 379741000, 381649000,
   383518000, 385348000, 387138000, 388887000, 390595000, 392260000, 393882000, 395460000,
   396993000, 398480000, 399921000, 401314000, 402659000, 403954000, 405199000, 406392000,
   407533000, 408621000, 409654000, 410632000, 411552000, 412415000, 413219000, 413962000,
   414644000, 415263000, 415818000, 416307000, 416729000, 417082000, 417365000, 417577000,
   417716000, 417779000, 417766000, 417674000]

def v19 : List Int :=
  [417502000, 417247000, 416908000, 416482000, 415967000, 415361000, 414661000, 413865000,
   412970000, 411972000, 410870000, 409659000, 408336000, 406898000, 405341000, 403660000,
   401851000, 399910000, 397830000, 395606000, 393233000, 390702000, 388007000, 385166000,
   382087000, 378842000, 375390000, 371717000, 367806000, 363633000, 359172000, 354386000,
   349223000, 343601000, 337350000, 329951000, 322291000, 314680000, 307117000, 299603000,
   292137000, 284718000, 277348000, 270026000, 262751000, 255524000, 248345000, 241213000,
   234129000, 227093000, 220103000, 213161000, 206266000, 199418000, 192617000, 185863000,
   179156000, 172495000, 165881000, 159314000, 152793000, 146318000, 139890000, 133508000,
   127172000, 120882000, 114639000, 108441000, 102288000, 96181700, 90120700, 84105300, 78135200,
   72210600, 66331200, 60497000, 54707800, 48963700, 43264500, 37610100, 32000400, 26435400,
   20915000, 15439000, 10007500, 4620230, -722813, -6021720, -11276600, -16487500, -21654600,
   -26777800, -31857400, -36893400, -41885900, -46834900, -51740600, -56603100, -61422400,
   -66198600]

def v20 : List Int :=
  [-70931800, -75622200, -80269700, -84874600, -89436800, -93956500, -98433700, -102869000,
   -107261000, -111612000, -115920000, -120186000, -124411000, -128593000, -132734000,
   -136833000, -140891000, -144907000, -148882000, -152816000, -156708000, -160560000,
   -164370000, -168139000, -171868000, -175556000, -179203000, -182810000, -186376000,
   -189902000, -193387000, -196833000, -200238000, -203603000, -206929000, -210214000,
   -213460000, -216667000, -219833000, -222961000, -226049000, -229097000, -232107000,
   -235077000, -238009000, -240902000, -243755000, -246571000, -249347000, -252085000,
   -254785000, -257446000, -260069000, -262654000, -265201000, -267710000, -270181000,
   -272615000, -275011000, -277369000, -279690000, -281973000, -284219000, -286428000,
   -288600000, -290735000, -292833000, -294894000, -296919000, -298907000, -300858000,
   -302774000, -304652000, -306495000, -308301000, -310072000, -311806000, -313505000,
   -315168000, -316795000, -318387000, -319944000, -321465000, -322951000, -324402000,
   -325817000, -327198000, -328544000, -329855000, -331132000, -332374000, -333582000,
   -334755000, -335894000, -336999000, -338070000, -339107000, -340110000, -341080000, -342016000]

def v21 : List Int :=
  [-342918000, -343787000, -344623000, -345425000, -346194000, -346931000, -347634000,
   -348304000, -348942000, -349547000, -350120000, -350660000, -351168000, -351644000,
   -352088000, -352500000, -352880000, -353228000, -353544000, -353829000, -354083000,
   -354305000, -354495000, -354655000, -354784000, -354881000, -354948000, -354984000,
   -354990000, -354965000, -354910000, -354824000, -354708000, -354562000, -354386000,
   -354180000, -353945000, -353680000, -353385000, -353061000, -352707000, -352324000,
   -351913000, -351472000, -351002000, -350504000, -349977000, -349421000, -348837000,
   -348224000, -347584000, -346915000, -346218000, -345493000, -344741000, -343961000,
   -343153000, -342318000, -341455000, -340566000, -339649000, -338705000, -337734000,
   -336737000, -335713000, -334662000, -333585000, -332482000, -331352000, -330197000,
   -329015000, -327808000, -326575000, -325316000, -324032000, -322722000, -321387000,
   -320027000, -318642000, -317232000, -315798000, -314338000, -312855000, -311346000,
   -309814000, -308257000, -306676000, -305071000, -303442000, -301790000, -300114000,
   -298414000, -296692000, -294946000, -293176000, -291384000, -289569000, -287732000,
   -285871000, -283989000]

def v22 : List Int :=
  [-282083000, -280156000, -278207000, -276235000, -274242000, -272227000, -270190000,
   -268132000, -266052000, -263952000, -261830000, -259687000, -257523000, -255339000,
   -253134000, -250909000, -248663000, -246397000, -244111000, -241805000, -239479000,
   -237134000, -234769000, -232384000, -229981000, -227558000, -225116000, -222655000,
   -220176000, -217678000, -215161000, -212627000, -210073000, -207502000, -204913000,
   -202306000, -199682000, -197040000, -194380000, -191704000, -189010000, -186299000,
   -183572000, -180827000, -178067000, -175290000, -172496000, -169687000, -166861000,
   -164020000, -161163000, -158290000, -155402000, -152499000, -149580000, -146647000,
   -143699000, -140736000, -137759000, -134767000, -131761000, -128741000, -125707000,
   -122659000, -119598000, -116523000, -113435000, -110334000, -107219000, -104092000,
   -100952000, -97799900, -94635000, -91457900, -88268700, -85067500, -81854600, -78630100,
   -75394100, -72146900, -68888400, -65619000, -62338800, -59048000, -55746600, -52434900,
   -49113100, -45781200, -42439500, -39088100, -35727300, -32357100, -28977700, -25589300,
   -22192100, -18786300, -15371900, -11949300, -8518460, -5079680]

def v23 : List Int :=
  [-1633100, 1821100, 5282750, 8751670, 12227700, 15710600, 19200300, 22696500, 26199100,
   29707900, 33222800, 36743400, 40269700, 43801500, 47338500, 50880600, 54427700, 57979400,
   61535700, 65096300, 68661100, 72229800, 75802300, 79378300, 82957800, 86540300, 90125900,
   93714300, 97305200, 100898000, 104494000, 108091000, 111691000, 115291000, 118894000,
   122497000, 126101000, 129706000, 133312000, 136918000, 140523000, 144129000, 147735000,
   151340000, 154944000, 158547000, 162149000, 165750000, 169349000, 172946000, 176541000,
   180133000, 183723000, 187311000, 190895000, 194476000, 198053000, 201627000, 205197000,
   208763000, 212324000, 215880000, 219432000, 222978000, 226519000, 230054000, 233584000,
   237107000, 240624000, 244134000, 247638000, 251133000, 254621000, 258102000, 261574000,
   265038000, 268494000, 271941000, 275379000, 278807000, 282226000, 285635000, 289034000,
   292422000, 295799000, 299165000, 302520000, 305863000, 309195000, 312514000, 315820000,
   319113000, 322393000, 325660000, 328913000, 332152000, 335376000, 338585000, 341780000,
   344959000]

def v24 : List Int :=
  [348122000, 351269000, 354399000, 357513000, 360609000, 363688000, 366750000, 369793000,
   372817000, 375822000, 378809000, 381775000, 384722000, 387647000, 390553000, 393437000,
   396299000, 399139000, 401957000, 404752000, 407524000, 410272000, 412996000, 415696000,
   418371000, 421020000, 423644000, 426241000, 428812000, 431355000, 433871000, 436358000,
   438817000, 441247000, 443648000, 446018000, 448357000, 450666000, 452943000, 455188000,
   457400000, 459579000, 461724000, 463834000, 465910000, 467950000, 469954000, 471921000,
   473851000, 475744000, 477597000, 479411000, 481186000, 482919000, 484612000, 486263000,
   487871000, 489436000, 490956000, 492432000, 493862000, 495246000, 496583000, 497871000,
   499111000, 500301000, 501441000, 502529000, 503565000, 504550000, 505476000, 506350000,
   507167000, 507927000, 508628000, 509271000, 509852000, 510373000, 510830000, 511224000,
   511552000, 511814000, 512008000, 512133000, 512188000, 512170000, 512079000, 511912000,
   511670000, 511348000, 510947000, 510463000, 509896000, 509243000, 508503000, 507672000,
   506750000, 505732000, 504618000, 503405000]

def v25 : List Int :=
  [502089000, 500669000, 499140000, 497500000, 495745000, 493873000, 491878000, 489757000,
   487505000, 485119000, 482591000, 479918000, 477092000, 474107000, 470955000, 467629000,
   464118000, 460413000, 456500000, 452365000, 447992000, 443358000, 438438000, 433198000,
   427588000, 421534000, 414892000, 407158000, 398959000, 390806000, 382698000, 374635000,
   366617000, 358645000, 350717000, 342834000, 334997000, 327204000, 319455000, 311752000,
   304093000, 296478000, 288908000, 281382000, 273901000, 266464000, 259071000, 251722000,
   244417000, 237156000, 229940000, 222766000, 215637000, 208551000, 201509000, 194511000,
   187556000, 180644000, 173776000, 166951000, 160169000, 153431000, 146735000, 140083000,
   133473000, 126906000, 120382000, 113901000, 107462000, 101066000, 94712600, 88401500,
   82132700, 75906200, 69722000, 63579900, 57479800, 51421800, 45405700, 39431500, 33499000,
   27608300, 21759300, 15951800, 10185900, 4461330, -1221820, -6863680, -12464300, -18023800,
   -23542200, -29019600, -34456000, -39851600, -45206400, -50520500, -55793900, -61026800,
   -66219100, -71371000]

def v26 : List Int :=
  [-76482600, -81553900, -86584900, -91575800, -96526600, -101437000, -106308000, -111139000,
   -115931000, -120682000, -125394000, -130067000, -134700000, -139293000, -143847000,
   -148362000, -152838000, -157274000, -161672000, -166031000, -170350000, -174631000,
   -178873000, -183077000, -187241000, -191368000, -195456000, -199505000, -203516000,
   -207489000, -211424000, -215321000, -219180000, -223000000, -226783000, -230528000,
   -234236000, -237906000, -241538000, -245133000, -248690000, -252210000, -255693000,
   -259139000, -262547000, -265919000, -269254000, -272551000, -275812000, -279037000,
   -282224000, -285375000, -288490000, -291568000, -294610000, -297615000, -300584000,
   -303518000, -306415000, -309276000, -312102000, -314891000, -317645000, -320363000,
   -323046000, -325693000, -328305000, -330882000, -333423000, -335929000, -338400000,
   -340836000, -343237000, -345603000, -347935000, -350231000, -352493000, -354721000,
   -356914000, -359073000, -361197000, -363287000, -365343000, -367365000, -369353000,
   -371308000, -373228000, -375114000, -376967000, -378786000, -380572000, -382325000,
   -384044000, -385729000, -387382000, -389001000, -390588000, -392141000, -393662000, -395150000]

def v27 : List Int :=
  [-396597000, -398027000, -399418000, -400775000, -402100000, -403393000, -404654000,
   -405883000, -407079000, -408244000, -409376000, -410477000, -411547000, -412584000,
   -413590000, -414565000, -415508000, -416420000, -417301000, -418151000, -418969000,
   -419757000, -420514000, -421240000, -421935000, -422600000, -423234000, -423837000,
   -424411000, -424954000, -425467000, -425949000, -426402000, -426825000, -427218000,
   -427581000, -427914000, -428218000, -428493000, -428738000, -428953000, -429140000,
   -429297000, -429425000, -429524000, -429594000, -429636000, -429649000, -429633000,
   -429588000, -429515000, -429414000, -429284000, -429127000, -428941000, -428727000,
   -428485000, -428215000, -427918000, -427593000, -427240000, -426860000, -426453000,
   -426018000, -425556000, -425066000, -424550000, -424007000, -423437000, -422840000,
   -422217000, -421567000, -420890000, -420187000, -419458000, -418703000, -417921000,
   -417114000, -416280000, -415421000, -414536000, -413625000, -412689000, -411727000,
   -410740000, -409727000, -408690000, -407627000, -406539000, -405427000, -404289000,
   -403127000, -401940000, -400729000, -399493000, -398233000, -396949000, -395641000,
   -394308000, -392952000]

def v28 : List Int :=
  [-391571000, -390167000, -388740000, -387288000, -385813000, -384315000, -382794000,
   -381249000, -379682000, -378091000, -376477000, -374841000, -373182000, -371501000,
   -369797000, -368070000, -366321000, -364545000, -362758000, -360943000, -359106000,
   -357247000, -355367000, -353465000, -351542000, -349597000, -347631000, -345644000,
   -343635000, -341606000, -339556000, -337485000, -335394000, -333282000, -331149000,
   -328996000, -326823000, -324630000, -322417000, -320183000, -317930000, -315658000,
   -313365000, -311053000, -308722000, -306372000, -304002000, -301613000, -299205000,
   -296779000, -294333000, -291869000, -289387000, -286886000, -284366000, -281829000,
   -279273000, -276700000, -274108000, -271499000, -268872000, -266228000, -263566000,
   -260887000, -258190000, -255477000, -252746000, -249999000, -247235000, -244454000,
   -241657000, -238843000, -236013000, -233167000, -230304000, -227426000, -224532000,
   -221622000, -218697000, -215756000, -212800000, -209828000, -206841000, -203840000,
   -200823000, -197792000, -194746000, -191685000, -188610000, -185521000, -182417000,
   -179300000, -176168000, -173023000, -169864000, -166691000, -163505000, -160306000,
   -157093000, -153867000]

def v29 : List Int :=
  [-150629000, -147377000, -144113000, -140836000, -137547000, -134246000, -130932000,
   -127606000, -124268000, -120919000, -117557000, -114185000, -110800000, -107405000,
   -103998000, -100580000, -97151600, -93712200, -90262100, -86801500, -83330500, -79849300,
   -76357900, -72856600, -69345400, -65824500, -62294100, -58754200, -55205000, -51646700,
   -48079400, -44503100, -40918100, -37324600, -33722500, -30112100, -26493600, -22867000,
   -19232500, -15590200, -11940400, -8283050, -4618400, -946567, 2732300, 6418050, 10110500,
   13809600, 17515100, 21227000, 24944900, 28668900, 32398700, 36134200, 39875300, 43621700,
   47373400, 51130100, 54891800, 58658300, 62429300, 66204900, 69984700, 73768700, 77556700,
   81348500, 85144000, 88943000, 92745300, 96550800, 100359000, 104171000, 107985000, 111801000,
   115620000, 119442000, 123265000, 127090000, 130917000, 134745000, 138574000, 142405000,
   146237000, 150070000, 153903000, 157737000, 161571000, 165405000, 169239000, 173073000,
   176906000, 180739000, 184571000, 188402000, 192232000, 196061000, 199888000, 203714000,
   207537000, 211359000]

def v30 : List Int :=
  [215178000]

/-- The ordinates, `NegLinearIntTransposed[1]`, in units of 10⁻⁶, NegativeBosonSpline.h:30-710. -/
def ordinates : List Int :=
    [v00, v01, v02, v03, v04, v05, v06, v07, v08, v09, v10, v11,
    v12, v13, v14, v15, v16, v17, v18, v19, v20, v21, v22, v23,
    v24, v25, v26, v27, v28, v29, v30].flatten

def w00 : List Int :=
  [-21646464650, -28184452510, -32228517340, -34289223830, -34648522700, -33510328010,
   -31037591680, -27368070050, -22622590330, -16909960320, -10330154900, -2976508055, 5062681395,
   13702934160, 22862626180, 32462179470, 42423408580, 52668891670, 63121408330, 73703434070,
   84336561130, 94940999610, 105434946400, 115733960600, 125750236700, 135391741100,
   144561211000, 153154911700, 161061102300, 168158055700, 174311456400, 179370910100,
   183165027000, 185494288000, 186120242000, 184747771500, 180994090500, 174326954800,
   163916138600, 148107410600, 121661654700, 92987302800, 65529739070, 39269394200, 14187007870,
   -9736390888, -32519495500, -54180736430, -74738304110, -94210146500, -112614002600,
   -129967389400, -146287646600, -161591907700, -175897141700, -189220143100, -201577586600,
   -212985937000, -223461566600, -233020711500, -241679471100, -249453849000, -256359724500,
   -262412901700, -267629061000, -272023823800, -275612719000, -278411211300, -280434694100,
   -281698966600, -282217930700, -282008206700, -281084539000, -279462054700, -277155925200,
   -274181245000, -270553107800, -266286592000, -261396788900, -255898734500, -249807554200,
   -243138321100, -235906126400, -228126220000, -219813602300, -210983588200, -201651382000,
   -191832299200, -181541687100, -170794957000, -159607601100, -147995178900, -135973350200,
   -123557796900, -110764422600, -97609148890, -84108034420, -70277272110, -56133182170,
   -41692228190]

def w01 : List Int :=
  [-26971031000, -11986374260, 3244783383, 18705295900, 34377816980, 50244791580, 66288436960,
   82490726070, 98833387280, 115297864200, 131865327900, 148516641100, 165232279300,
   181992479500, 198777030800, 215565453800, 232336425800, 249068802000, 265740556500,
   282329215800, 298811797400, 315164708300, 331363738800, 347383970800, 363199798700,
   378784808700, 394111735300, 409152403700, 423877634500, 438257178700, 452259625700,
   465852188000, 479000846400, 491669876100, 503821923900, 515417746300, 526416030700,
   536773071700, 546442654300, 555375585900, 563519327600, 570817586700, 577209768900,
   582630139600, 587007484300, 590263140300, 592310679000, 593053624100, 592383443100,
   590176189700, 586289062400, 580553658000, 572767435500, 562679529200, 549966740200,
   534188662400, 514689278000, 490315496300, 457413196500, 416261609700, 376000175300,
   336622690400, 298122984900, 260494894900, 223732259600, 187828942300, 152778806000,
   118575725400, 85213586460, 52686286770, 20987710250, -9888217056, -39947584820, -69196471370,
   -97640947990, -125287075300, -152140920400, -178208529000, -203495958400, -228009242900,
   -251754450900, -274737594800, -296964700100, -318441844400, -339175022800, -359170270500,
   -378433623200, -396971096700, -414788742000, -431892548700, -448288575100, -463982841300,
   -478981390700, -493290209600, -506915376900, -519862920800, -532138881400, -543749339300,
   -554700194300, -564997673100]

def w02 : List Int :=
  [-574647760800, -583656533100, -592030041600, -599774377400, -606895624500, -613399874100,
   -619293214800, -624581759500, -629271641300, -633368948200, -636879827600, -639810444100,
   -642166949500, -643955510300, -645182295100, -645853529800, -645975393400, -645554102000,
   -644595923900, -643107146800, -641093833000, -638562750800, -635519434800, -631970829000,
   -627923069000, -623382532600, -618355559300, -612848603300, -606868157200, -600420289500,
   -593511850000, -586149194500, -578338790800, -570087263700, -561401122000, -552286958900,
   -542751351200, -532801066200, -522442527500, -511682642600, -500528089800, -488985670000,
   -477062091000, -464764273300, -452099043800, -439073320400, -425693987600, -411968066400,
   -397902583800, -383504581400, -368781161300, -353739468800, -338386642700, -322730053400,
   -306776846000, -290534395000, -274010076500, -257211307900, -240145619000, -222820507200,
   -205243570200, -187422473900, -169364927100, -151078702200, -132571650000, -113851661500,
   -94926721080, -75804865330, -56494210740, -37002948730, -17339345730, 2488251854, 22471416150,
   42601639300, 62870294420, 83268718190, 103788116500, 124419605500, 145154202400, 165982799500,
   186896272400, 207885317100, 228940327300, 250051975800, 271210530300, 292406184400,
   313629068600, 334869065900, 356116003200, 377359496100, 398589068100, 419794046600,
   440963594800, 462086704300, 483152183000, 504148659500, 525064560700, 545888104500,
   566607295200, 587209924100]

def w03 : List Int :=
  [607683513200, 628015423900, 648192670300, 668202034200, 688030008700, 707662820800,
   727086355900, 746286180200, 765247527300, 783955293000, 802393894500, 820547480600,
   838399712300, 855933769000, 873132406000, 889977864500, 906453421300, 922535455600,
   938209214800, 953453035500, 968246076100, 982566801100, 996392857100, 1009700982000,
   1022467108000, 1034666138000, 1046271835000, 1057256861000, 1067592593000, 1077249074000,
   1086194617000, 1094396211000, 1101818781000, 1108425301000, 1114176566000, 1119030464000,
   1122942704000, 1125865307000, 1127746988000, 1128532075000, 1128160325000, 1126566117000,
   1123676606000, 1119412540000, 1113684424000, 1106391971000, 1097421020000, 1086639828000,
   1073894029000, 1058998910000, 1041727853000, 1021792932000, 998810365400, 972229772800,
   941156360400, 903638613600, 854774187600, 804873567800, 755704095900, 707262536400,
   659545669800, 612550433200, 566273470300, 520711617100, 475861691500, 431720485600,
   388284855400, 345551417300, 303517139500, 262178757200, 221533058000, 181576832300,
   142306872600, 103719955000, 65812864960, 28582387370, -7974700683, -43861622580, -79081597060,
   -113637847100, -147533630200, -180772147900, -213356651500, -245290360600, -276576517800,
   -307218387400, -337219192600, -366582180500, -395310618500, -423407745200, -450876827800,
   -477721110500, -503943881800, -529548385500, -554537905800, -578915711900, -602676519900,
   -625849288700, -648411639800, -670375406400]

def w04 : List Int :=
  [-691743895600, -712520395100, -732708224400, -752310642600, -771331039400, -789772661200,
   -807638846800, -824932935200, -841658244600, -857818145300, -873415919700, -888454965700,
   -902938561300, -916870167300, -930253112900, -943090685300, -955386814200, -967143418400,
   -978365373000, -989055520300, -999217289500, -1008854059000, -1017969310000, -1026566422000,
   -1034648752000, -1042219825000, -1049283048000, -1055841881000, -1061899418000,
   -1067459687000, -1072526463000, -1077102377000, -1081191074000, -1084796273000,
   -1087921358000, -1090569967000, -1092745546000, -1094451574000, -1095691641000,
   -1096469286000, -1096788053000, -1096651497000, -1096063213000, -1095026803000,
   -1093545778000, -1091623807000, -1089264507000, -1086471437000, -1083248336000,
   -1079598773000, -1075526400000, -1071034909000, -1066128004000, -1060809281000,
   -1055082390000, -1048951326000, -1042419729000, -1035491150000, -1028169437000,
   -1020458362000, -1012361690000, -1003883224000, -995026759600, -985796117900, -976195133400,
   -966227652300, -955897536900, -945208652600, -934164882200, -922770153500, -911028386600,
   -898943511800, -886519441500, -873760231900, -860669806000, -847252175300, -833511375800,
   -819451295500, -805076416800, -790390396800, -775397458500, -760101736200, -744507363400,
   -728618469100, -712439236600, -695973866700, -679226576100, -662201571400, -644903142300,
   -627335556700, -609503119100, -591410108200, -573061012200, -554460060700, -535611712600,
   -516520359000, -497190476100, -477626492500, -457832908400, -437814425300]

def w05 : List Int :=
  [-417575456700, -397120512100, -376454284800, -355581433900, -334506578200, -313234434800,
   -291769762300, -270117306600, -248281856400, -226268250400, -204081345500, -181726026400,
   -159207274300, -136530005900, -113699245300, -90720031030, -67597449250, -44336615030,
   -20942699270, 2579106075, 26223553610, 49985354670, 73859181030, 97839659120, 121921354300,
   146098811800, 170366502800, 194718867100, 219150279600, 243655078300, 268227531200,
   292861866500, 317552241900, 342292769600, 367077499100, 391900431500, 416755473000,
   441636949200, 466537297500, 491451566300, 516373083300, 541295332300, 566211846500,
   591116061700, 616001389700, 640861086500, 665688363400, 690476314900, 715217983600,
   739906330000, 764534053100, 789094429600, 813579494000, 837982178900, 862294757400,
   886509656300, 910619088800, 934615219300, 958490015000, 982235432900, 1005843038000,
   1029304637000, 1052611678000, 1075755478000, 1098727307000, 1121518916000, 1144118903000,
   1166520352000, 1188713040000, 1210687322000, 1232433433000, 1253941369000, 1275201043000,
   1296201948000, 1316933617000, 1337384991000, 1357545229000, 1377402916000, 1396946626000,
   1416164409000, 1435044193000, 1453573626000, 1471739878000, 1489530040000, 1506930752000,
   1523928165000, 1540508404000, 1556656613000, 1572358277000, 1587597630000, 1602359156000,
   1616626392000, 1630382577000, 1643610258000, 1656291329000, 1668407206000, 1679938579000,
   1690865474000, 1701167062000, 1710821453000]

def w06 : List Int :=
  [1719806158000, 1728097578000, 1735671934000, 1742502585000, 1748562788000, 1753824448000,
   1758257666000, 1761831092000, 1764511691000, 1766264267000, 1767051677000, 1766833750000,
   1765569003000, 1763211269000, 1759711899000, 1755018004000, 1749072308000, 1741812105000,
   1733168793000, 1723066038000, 1711420583000, 1698136060000, 1683105246000, 1666204181000,
   1647288269000, 1626185667000, 1602687256000, 1576530621000, 1547372046000, 1514732557000,
   1477873085000, 1435393762000, 1382360408000, 1324418850000, 1267114289000, 1210444717000,
   1154408115000, 1099002462000, 1044225777000, 990075905800, 936550986500, 883648844100,
   831367588000, 779705091500, 728659343900, 678228356500, 628410043800, 579202357800,
   530603307700, 482610829600, 435222796000, 388437392000, 342252369900, 296665710200,
   251675403300, 207279386800, 163475599000, 120261990600, 77636506590, 35597067110, -5858369661,
   -46731872660, -87025516220, -126741358500, -165881476600, -204447946700, -242442843000,
   -279868242900, -316726214000, -353018861000, -388748253000, -423916484500, -458525651000,
   -492577812200, -526075150000, -559019641300, -591413473700, -623258707600, -654557474800,
   -685311861500, -715524040500, -745196016600, -774329914100, -802928045700, -830992292600,
   -858524893200, -885527975100, -912003627000, -937954069300, -963381330000, -988287599800,
   -1012675031000, -1036545818000, -1059901948000, -1082745737000, -1105079253000,
   -1126904724000, -1148224226000, -1169040060000, -1189354227000]

def w07 : List Int :=
  [-1209169049000, -1228486601000, -1247309094000, -1265638725000, -1283477664000,
   -1300827969000, -1317692313000, -1334072368000, -1349970533000, -1365388804000,
   -1380330027000, -1394795765000, -1408788462000, -1422310333000, -1435363531000,
   -1447950540000, -1460073585000, -1471734232000, -1482935481000, -1493679333000,
   -1503968089000, -1513803812000, -1523189025000, -1532125849000, -1540616596000,
   -1548663502000, -1556268844000, -1563434960000, -1570164138000, -1576458578000,
   -1582320695000, -1587752809000, -1592757013000, -1597335856000, -1601491574000,
   -1605225928000, -1608542925000, -1611443172000, -1613929770000, -1616004808000,
   -1617670810000, -1618930099000, -1619784945000, -1620238088000, -1620291096000,
   -1619947094000, -1619208223000, -1618076858000, -1616555440000, -1614646406000,
   -1612352000000, -1609674922000, -1606617360000, -1603181820000, -1599370729000,
   -1595186560000, -1590631717000, -1585708695000, -1580419950000, -1574767954000,
   -1568755180000, -1562384130000, -1555657275000, -1548576883000, -1541146146000,
   -1533366980000, -1525241939000, -1516773800000, -1507964936000, -1498817944000,
   -1489335339000, -1479519748000, -1469373688000, -1458899792000, -1448100612000,
   -1436978692000, -1425536754000, -1413777291000, -1401703002000, -1389316525000,
   -1376620416000, -1363617455000, -1350310177000, -1336701303000, -1322793521000,
   -1308589499000, -1294091947000, -1279303533000, -1264227060000, -1248865120000,
   -1233220654000, -1217296275000, -1201094645000, -1184618712000, -1167871174000,
   -1150854845000, -1133572517000, -1116027009000, -1098221157000, -1080157785000]

def w08 : List Int :=
  [-1061839739000, -1043269442000, -1024451090000, -1005386221000, -986078273600, -966530033800,
   -946744517700, -926724611400, -906473299400, -885993427200, -865288186800, -844360424200,
   -823213163100, -801849427900, -780272271200, -758484719500, -736489843900, -714290746900,
   -691890491900, -669292199400, -646498983300, -623514007600, -600340544800, -576981398300,
   -553440142900, -529719887000, -505823742400, -481755075800, -457517090500, -433113092300,
   -408546557800, -383820222000, -358938002700, -333903071800, -308718811300, -283388598900,
   -257915860000, -232304025100, -206556554600, -180676934700, -154668659600, -128535252900,
   -102280261800, -75907255600, -49419827260, -22821590000, 3883812354, 30692716650, 57601418760,
   84606243910, 111703413400, 138889164000, 166159708800, 193511208200, 220939838000,
   248441712600, 276012906000, 303649468800, 331347526400, 359102957700, 386911791600,
   414769962100, 442673372200, 470617891700, 498599366700, 526613581800, 554656317500,
   582723309000, 610810242700, 638912789000, 667026543600, 695147115400, 723270025700,
   751390826000, 779504820400, 807607584000, 835694414700, 863760675000, 891801756700,
   919812600200, 947788408200, 975724611500, 1003616172000, 1031458032000, 1059245336000,
   1086972495000, 1114635541000, 1142228084000, 1169745432000, 1197182234000, 1224533029000,
   1251792501000, 1278955124000, 1306015331000, 1332967482000, 1359806029000, 1386525019000,
   1413118561000, 1439581400000, 1465906486000]

def w09 : List Int :=
  [1492088450000, 1518121024000, 1543997994000, 1569712964000, 1595259653000, 1620631293000,
   1645821626000, 1670823615000, 1695630728000, 1720236076000, 1744632534000, 1768813043000,
   1792770371000, 1816497170000, 1839985970000, 1863229200000, 1886219234000, 1908947924000,
   1931407544000, 1953590180000, 1975486647000, 1997089361000, 2018389480000, 2039378159000,
   2060046461000, 2080385334000, 2100385395000, 2120037157000, 2139330909000, 2158256767000,
   2176804370000, 2194963597000, 2212723751000, 2230073833000, 2247002898000, 2263499379000,
   2279551810000, 2295147707000, 2310275034000, 2324921406000, 2339073486000, 2352718051000,
   2365840914000, 2378428376000, 2390465633000, 2401937945000, 2412828728000, 2423122776000,
   2432803540000, 2441853667000, 2450254509000, 2457988519000, 2465036069000, 2471377368000,
   2476991856000, 2481856749000, 2485950514000, 2489249178000, 2491728039000, 2493360923000,
   2494120835000, 2493978903000, 2492904901000, 2490866837000, 2487831043000, 2483761291000,
   2478619404000, 2472364286000, 2464952529000, 2456335903000, 2446464415000, 2435282542000,
   2422729229000, 2408740198000, 2393240711000, 2376150244000, 2357377827000, 2336820431000,
   2314360144000, 2289860151000, 2263157532000, 2234057407000, 2202316214000, 2167619707000,
   2129539453000, 2087438151000, 2040204357000, 1984513863000, 1919539737000, 1855137361000,
   1791305231000, 1728042021000, 1665346253000, 1603216539000, 1541651419000, 1480649452000,
   1420209294000, 1360329471000, 1301008566000, 1242245131000]

def w10 : List Int :=
  [1184037775000, 1126384919000, 1069285437000, 1012737464000, 956740208000, 901291530600,
   846390362100, 792035215600, 738224653600, 684957152400, 632231357200, 580045820900,
   528399024800, 477289584500, 426716066100, 376676933000, 327170799300, 278196209100,
   229751687000, 181835780000, 134447032900, 87583984530, 41245172120, -4570867577, -49865597100,
   -94640492370, -138897011800, -182636692100, -225860818100, -268571032200, -310768798100,
   -352455542300, -393632772200, -434301928800, -474464535900, -514122071400, -553276008500,
   -591927834600, -630079038900, -667731138400, -704885606000, -741543885800, -777707555700,
   -813378101000, -848556934200, -883245692900, -917445718500, -951158765500, -984386129200,
   -1017129364000, -1049389982000, -1081169530000, -1112469519000, -1143291443000,
   -1173636835000, -1203507310000, -1232904136000, -1261829069000, -1290283102000,
   -1318269205000, -1345787455000, -1372839921000, -1399428011000, -1425553393000,
   -1451217586000, -1476422077000, -1501168478000, -1525458297000, -1549293080000,
   -1572674421000, -1595603840000, -1618082911000, -1640113173000, -1661696455000,
   -1682833633000, -1703526893000, -1723777703000, -1743587452000, -1762957964000,
   -1781890627000, -1800387032000, -1818448841000, -1836077636000, -1853274889000,
   -1870042315000, -1886381461000, -1902293938000, -1917781326000, -1932845233000,
   -1947487256000, -1961709107000, -1975512218000, -1988898335000, -2001869004000,
   -2014425888000, -2026570529000, -2038304680000, -2049629868000, -2060547771000, -2071060004000]

def w11 : List Int :=
  [-2081168254000, -2090874043000, -2100179099000, -2109084808000, -2117593594000,
   -2125706300000, -2133424910000, -2140750995000, -2147686313000, -2154232422000,
   -2160391073000, -2166163907000, -2171552598000, -2176558809000, -2181184298000,
   -2185430666000, -2189299641000, -2192792899000, -2195912079000, -2198659034000,
   -2201035431000, -2203042752000, -2204683124000, -2205957890000, -2206868907000,
   -2207417845000, -2207606608000, -2207436669000, -2206909955000, -2206028094000,
   -2204792882000, -2203206066000, -2201269434000, -2198984306000, -2196353491000,
   -2193377772000, -2190058966000, -2186399610000, -2182400614000, -2178064340000,
   -2173392209000, -2168386174000, -2163048020000, -2157379313000, -2151382507000,
   -2145058689000, -2138410006000, -2131436722000, -2124144000000, -2116532648000,
   -2108602496000, -2100356182000, -2091796635000, -2082924570000, -2073742317000,
   -2064251592000, -2054454419000, -2044352509000, -2033947787000, -2023242138000,
   -2012237403000, -2000935529000, -1989338327000, -1977447794000, -1965265719000,
   -1952794152000, -1940034846000, -1926989822000, -1913660931000, -1900050278000,
   -1886159560000, -1871990636000, -1857546078000, -1842827155000, -1827836134000,
   -1812574946000, -1797045563000, -1781249913000, -1765190014000, -1748867817000,
   -1732285388000, -1715444753000, -1698347830000, -1680996691000, -1663393323000,
   -1645539775000, -1627438117000, -1609090393000, -1590498584000, -1571664862000,
   -1552591188000, -1533279647000, -1513732357000, -1493951405000, -1473938888000,
   -1453696861000, -1433227491000, -1412532956000, -1391615686000, -1370476573000]

def w12 : List Int :=
  [-1349119050000, -1327544817000, -1305756120000, -1283755012000, -1261543736000,
   -1239124458000, -1216499375000, -1193670684000, -1170640612000, -1147411352000,
   -1123985149000, -1100364226000, -1076550862000, -1052547282000, -1028355752000,
   -1003978558000, -979419280500, -954676341200, -929755904300, -904658977200, -879387949400,
   -853945087400, -828332767800, -802553367600, -776609193700, -750502678800, -724236143400,
   -697812126000, -671232875900, -644500906100, -617618632200, -590588485900, -563412958200,
   -536094468900, -508635552500, -481038654900, -453306333200, -425441070200, -397445398900,
   -369321880100, -341073055200, -312701509000, -284209825800, -255600593900, -226876457300,
   -198039973900, -169093853600, -140040724800, -110883263500, -81624150230, -52266090650,
   -22811795960, 6736000031, 36374550530, 66101092420, 95912843520, 125807009000, 155780780000,
   185831320900, 215955782200, 246151306400, 276415003200, 306744855100, 337135335100,
   367586049500, 398093265600, 428653956600, 459265127000, 489923769000, 520626849700,
   551371306000, 582154067500, 612972037700, 643822076500, 674701062200, 705605817000,
   736533152200, 767479861100, 798442808600, 829418460900, 860403823800, 891395417600,
   922390034100, 953384246700, 984374627600, 1015357879000, 1046330432000, 1077288929000,
   1108229826000, 1139149460000, 1170044776000, 1200911648000, 1231746671000, 1262546230000,
   1293306622000, 1324024085000, 1354694961000, 1385315459000, 1415881778000, 1446390067000]

def w13 : List Int :=
  [1476836428000, 1507216996000, 1537527804000, 1567764848000, 1597924102000, 1628001549000,
   1657993073000, 1687894507000, 1717701636000, 1747410292000, 1777016188000, 1806514932000,
   1835902320000, 1865173807000, 1894324993000, 1923351370000, 1952248335000, 1981011329000,
   2009635721000, 2038116777000, 2066449645000, 2094629834000, 2122651708000, 2150511170000,
   2178202696000, 2205721457000, 2233062348000, 2260219976000, 2287189248000, 2313964819000,
   2340541244000, 2366913037000, 2393074740000, 2419020644000, 2444745609000, 2470242272000,
   2495506309000, 2520531340000, 2545311170000, 2569839895000, 2594111072000, 2618118884000,
   2641855677000, 2665316171000, 2688493247000, 2711380253000, 2733970279000, 2756256450000,
   2778231589000, 2799888462000, 2821219906000, 2842218105000, 2862875575000, 2883184944000,
   2903137841000, 2922726388000, 2941942255000, 2960777138000, 2979222555000, 2997269630000,
   3014909509000, 3032133144000, 3048930971000, 3065293722000, 3081211544000, 3096674458000,
   3111672389000, 3126194607000, 3140230537000, 3153769300000, 3166799452000, 3179309397000,
   3191287312000, 3202720696000, 3213597792000, 3223904816000, 3233628738000, 3242755782000,
   3251271858000, 3259162269000, 3266412010000, 3273005381000, 3278926356000, 3284158062000,
   3288683354000, 3292483977000, 3295541484000, 3297836205000, 3299348210000, 3300056401000,
   3299938465000, 3298971536000, 3297131475000, 3294393186000, 3290729496000, 3286114015000,
   3280514185000, 3273901659000, 3266243236000, 3257502231000]

def w14 : List Int :=
  [3247642665000, 3236624161000, 3224404172000, 3210936525000, 3196171893000, 3180056403000,
   3162531436000, 3143532958000, 3122990162000, 3100824576000, 3076948371000, 3051262384000,
   3023653100000, 2993989435000, 2962116922000, 2927850052000, 2890960336000, 2851155148000,
   2808042868000, 2761056003000, 2709256839000, 2650498316000, 2580305961000, 2509533622000,
   2439283235000, 2369553812000, 2300344125000, 2231653202000, 2163480160000, 2095823497000,
   2028682465000, 1962056074000, 1895942927000, 1830342138000, 1765252728000, 1700673494000,
   1636603320000, 1573041180000, 1509983960000, 1447436831000, 1385393463000, 1323851596000,
   1262813523000, 1202277003000, 1142240948000, 1082704306000, 1023665932000, 965124785400,
   907079781000, 849529798900, 792473773700, 735910610300, 679839227500, 624258486000,
   569167324000, 514564735100, 460449361500, 406820353100, 353676543000, 301016797200,
   248840048200, 197145189400, 145931086300, 95196665900, 44940812160, -4837582643, -54139628060,
   -102966427000, -151319105100, -199198759400, -246606515400, -293543481900, -340010767500,
   -386009519500, -431540795300, -476605766000, -521205570900, -565341259700, -609013993300,
   -652224918600, -694975135800, -737265776600, -779097879600, -820472859500, -861391592600,
   -901855213900, -941864923600, -981421870100, -1020527166000, -1059182019000, -1097387380000,
   -1135144567000, -1172454677000, -1209318844000, -1245738204000, -1281713919000,
   -1317247093000, -1352338968000, -1386985832000, -1421203184000]

def w15 : List Int :=
  [-1454977801000, -1488315869000, -1521218236000, -1553686170000, -1585720837000,
   -1617323404000, -1648495028000, -1679236845000, -1709550084000, -1739435859000,
   -1768895472000, -1797929786000, -1826540205000, -1854727875000, -1882493946000,
   -1909839652000, -1936766361000, -1963274460000, -1989366067000, -2015041901000,
   -2040303235000, -2065151327000, -2089587251000, -2113612174000, -2137227424000,
   -2160434048000, -2183233361000, -2205626510000, -2227614698000, -2249199123000,
   -2270380859000, -2291161603000, -2311541895000, -2331523338000, -2351107066000,
   -2370294274000, -2389086548000, -2407483935000, -2425488926000, -2443101745000,
   -2460324995000, -2477158654000, -2493604280000, -2509663196000, -2525336417000,
   -2540625606000, -2555531396000, -2570055772000, -2584199372000, -2597963526000,
   -2611349554000, -2624358946000, -2636992507000, -2649251738000, -2661137724000,
   -2672652048000, -2683795628000, -2694569849000, -2704975974000, -2715015178000,
   -2724688860000, -2733998118000, -2742944668000, -2751528889000, -2759752887000,
   -2767617535000, -2775124308000, -2782274340000, -2789068944000, -2795509436000,
   -2801597069000, -2807333171000, -2812718960000, -2817755730000, -2822444860000,
   -2826787140000, -2830785305000, -2834439176000, -2837750604000, -2840721417000,
   -2843351069000, -2845642847000, -2847597417000, -2849215918000, -2850499971000,
   -2851450516000, -2852065376000, -2852357563000, -2852316342000, -2851947207000,
   -2851251531000, -2850230331000, -2848885283000, -2847217583000, -2845228688000,
   -2842919871000, -2840292445000, -2837347788000, -2834087333000, -2830512383000]

def w16 : List Int :=
  [-2826624229000, -2822424309000, -2817914131000, -2813094869000, -2807967943000,
   -2802534728000, -2796796700000, -2790748296000, -2784411441000, -2777766831000,
   -2770823332000, -2763581653000, -2756043525000, -2748210143000, -2740083130000,
   -2731663679000, -2722953518000, -2713953801000, -2704666038000, -2695091071000,
   -2685231996000, -2675087519000, -2664662878000, -2653956226000, -2642970108000,
   -2631705953000, -2620165313000, -2608349371000, -2596259964000, -2583898231000,
   -2571265868000, -2558364102000, -2545194552000, -2531758803000, -2518058002000,
   -2504093910000, -2489867889000, -2475381318000, -2460636286000, -2445633640000,
   -2430374811000, -2414861976000, -2399096107000, -2383078871000, -2366811720000,
   -2350296459000, -2333534053000, -2316526321000, -2299274588000, -2281781623000,
   -2264047428000, -2246074133000, -2227863451000, -2209416398000, -2190735116000,
   -2171820907000, -2152675444000, -2133300244000, -2113696830000, -2093866897000,
   -2073811902000, -2053533675000, -2033033600000, -2012313343000, -1991374481000,
   -1970218662000, -1948847674000, -1927262711000, -1905465757000, -1883458384000,
   -1861242187000, -1838818843000, -1816189972000, -1793357290000, -1770322328000,
   -1747086864000, -1723652596000, -1700021082000, -1676194134000, -1652173133000,
   -1627960445000, -1603557143000, -1578965125000, -1554186138000, -1529221898000,
   -1504074007000, -1478744358000, -1453234508000, -1427546716000, -1401682121000,
   -1375642571000, -1349430084000, -1323046349000, -1296492983000, -1269771944000,
   -1242884938000, -1215833750000, -1188620233000, -1161246178000, -1133713391000]

def w17 : List Int :=
  [-1106023692000, -1078178928000, -1050180958000, -1022031563000, -993732682100, -965285819100,
   -936693669500, -907957309700, -879078944500, -850060393400, -820903609600, -791610209800,
   -762182777800, -732622709900, -702931503800, -673112638900, -643166571100, -613095771900,
   -582902167200, -552587743100, -522154529400, -491604472800, -460939565500, -430161834800,
   -399273282600, -368275956400, -337171887200, -305963121900, -274651689000, -243239692300,
   -211729182600, -180122263800, -148421014400, -116627551900, -84743980890, -52772437440,
   -20715051470, 11426018170, 43648623160, 75950590730, 108329739500, 140783879100, 173310801200,
   205908294400, 238574134500, 271306060000, 304101870900, 336959268700, 369875968500,
   402849700600, 435878162900, 468959031600, 502090020000, 535268711600, 568492815300,
   601759951400, 635067729500, 668413766600, 701795656300, 735210951500, 768657243600,
   802132071900, 835632969200, 869157523600, 902703006600, 936267132600, 969847321500,
   1003441002000, 1037045628000, 1070658466000, 1104277360000, 1137899279000, 1171521691000,
   1205142362000, 1238757527000, 1272365590000, 1305963477000, 1339548462000, 1373117864000,
   1406668935000, 1440198690000, 1473704582000, 1507183775000, 1540633144000, 1574050184000,
   1607431864000, 1640775270000, 1674077511000, 1707335631000, 1740546652000, 1773707551000,
   1806815471000, 1839867331000, 1872859685000, 1905789949000, 1938654854000, 1971451059000,
   2004175632000, 2036825367000, 2069396968000]

def w18 : List Int :=
  [2101887216000, 2134292851000, 2166610560000, 2198837061000, 2230968824000, 2263002654000,
   2294935040000, 2326762727000, 2358481706000, 2390088965000, 2421580657000, 2452953655000,
   2484204047000, 2515327730000, 2546321658000, 2577181886000, 2607904663000, 2638486210000,
   2668922580000, 2699209918000, 2729344548000, 2759322190000, 2789138957000, 2818790852000,
   2848273764000, 2877583441000, 2906715817000, 2935666663000, 2964431622000, 2993006457000,
   3021386696000, 3049568206000, 3077545730000, 3105315524000, 3132872937000, 3160212653000,
   3187330565000, 3214221836000, 3240881604000, 3267304987000, 3293486326000, 3319421603000,
   3345105311000, 3370532316000, 3395697272000, 3420594964000, 3445220039000, 3469567043000,
   3493630138000, 3517404044000, 3540882918000, 3564061032000, 3586932203000, 3609490705000,
   3631730489000, 3653656041000, 3675228721000, 3696474506000, 3717376163000, 3737927355000,
   3758120370000, 3777949387000, 3797407076000, 3816486335000, 3835180106000, 3853480624000,
   3871380641000, 3888872593000, 3905948317000, 3922600545000, 3938820359000, 3954599830000,
   3969930631000, 3984803572000, 3999210344000, 4013141151000, 4026588113000, 4039540475000,
   4051988957000, 4063923656000, 4075334268000, 4086210283000, 4096541294000, 4106316101000,
   4115523425000, 4124151488000, 4132188772000, 4139622628000, 4146440533000, 4152629519000,
   4158176095000, 4163066548000, 4167286320000, 4170821132000, 4173654971000, 4175772473000,
   4177157386000, 4177792498000, 4177660382000, 4176742585000]

def w19 : List Int :=
  [4175020087000, 4172473105000, 4169080878000, 4164821984000, 4159673674000, 4153612177000,
   4146613001000, 4138650000000, 4129695616000, 4119721071000, 4108695776000, 4096587338000,
   4083361432000, 4068981203000, 4053408246000, 4036600082000, 4018511918000, 3999095439000,
   3978297696000, 3956061773000, 3932325758000, 3907018165000, 3880065344000, 3851656683000,
   3820867723000, 3788417220000, 3753902268000, 3717174307000, 3678055737000, 3636329048000,
   3591718349000, 3543858715000, 3492231247000, 3436010933000, 3373504745000, 3299506980000,
   3222912062000, 3146801463000, 3071171549000, 2996028700000, 2921365344000, 2847182428000,
   2773479559000, 2700255803000, 2627510235000, 2555242057000, 2483450413000, 2412134537000,
   2341293390000, 2270926324000, 2201032292000, 2131610783000, 2062660762000, 1994181060000,
   1926171278000, 1858630543000, 1791557660000, 1724952102000, 1658812805000, 1593139220000,
   1527930067000, 1463184739000, 1398902485000, 1335082220000, 1271723164000, 1208824627000,
   1146385511000, 1084405069000, 1022882401000, 961816731000, 901207006700, 841052584700,
   781352481300, 722105868200, 663311865800, 604969655000, 547078254100, 489636894200,
   432644716900, 376100602100, 320004247000, 264354266900, 209149951500, 154390426200,
   100074821100, 46202259380, -7228133783, -60217234940, -112765894700, -164875068500,
   -216545557100, -267778274900, -318574091900, -368933908100, -418858543700, -468348987400,
   -517406056700, -566030614500, -614223593100, -661985868100]

def w20 : List Int :=
  [-709318329000, -756221871600, -802697354800, -848745712400, -894367797600, -939564531700,
   -984336788600, -1028685462000, -1072611502000, -1116115737000, -1159199079000, -1201862458000,
   -1244106739000, -1285932831000, -1327341875000, -1368334131000, -1408911158000,
   -1449073395000, -1488822277000, -1528158291000, -1567082430000, -1605595635000,
   -1643698865000, -1681392891000, -1718678771000, -1755557625000, -1792029529000,
   -1828096307000, -1863758531000, -1899017115000, -1933872990000, -1968327110000,
   -2002380349000, -2036033646000, -2069287938000, -2102144102000, -2134603115000,
   -2166665934000, -2198333269000, -2229606470000, -2260486273000, -2290973213000,
   -2321068739000, -2350772483000, -2380088781000, -2409015156000, -2437553686000,
   -2465705384000, -2493470947000, -2520851617000, -2547847815000, -2574461590000,
   -2600692812000, -2626542796000, -2652012469000, -2677102679000, -2701814773000,
   -2726149185000, -2750107179000, -2773689585000, -2796897437000, -2819731652000,
   -2842192924000, -2864283015000, -2886002083000, -2907351299000, -2928331807000,
   -2948944379000, -2969190066000, -2989069792000, -3008584588000, -3027735380000,
   -3046523068000, -3064948842000, -3083013433000, -3100718028000, -3118063438000,
   -3135050721000, -3151680698000, -3167954664000, -3183873474000, -3199437928000,
   -3214649154000, -3229508231000, -3244015927000, -3258173421000, -3271981457000,
   -3285441633000, -3298554260000, -3311320587000, -3323741665000, -3335818414000,
   -3347551931000, -3358943053000, -3369992937000, -3380702459000, -3391073014000,
   -3401104863000, -3410799584000, -3420158250000]

def w21 : List Int :=
  [-3429181658000, -3437870749000, -3446226615000, -3454250384000, -3461943080000,
   -3469305378000, -3476338704000, -3483043920000, -3489422119000, -3495474149000,
   -3501201358000, -3506604463000, -3511684701000, -3516442856000, -3520880972000,
   -3524997960000, -3528796774000, -3532277905000, -3535442363000, -3538291059000,
   -3540825163000, -3543045796000, -3544953995000, -3546550344000, -3547836683000,
   -3548813658000, -3549482168000, -3549843609000, -3549898995000, -3549649747000,
   -3549095195000, -3548238350000, -3547079703000, -3545620166000, -3543860746000,
   -3541803085000, -3539447693000, -3536795756000, -3533848379000, -3530606775000,
   -3527071811000, -3523244769000, -3519126620000, -3514718630000, -3510021736000,
   -3505037011000, -3499765579000, -3494208634000, -3488367303000, -3482242421000,
   -3475835569000, -3469147442000, -3462179301000, -3454932213000, -3447407432000,
   -3439605941000, -3431528785000, -3423177459000, -3414552718000, -3405655715000,
   -3396487849000, -3387050057000, -3377343412000, -3367369161000, -3357128505000,
   -3346622270000, -3335852284000, -3324818964000, -3313523944000, -3301968090000,
   -3290152665000, -3278078824000, -3265747753000, -3253160546000, -3240318305000,
   -3227222628000, -3213874142000, -3200274377000, -3186424205000, -3172324728000,
   -3157978146000, -3143384489000, -3128545312000, -3113461843000, -3098135015000,
   -3082566863000, -3066757613000, -3050709113000, -3034422126000, -3017898070000,
   -3001138112000, -2984143537000, -2966915478000, -2949455222000, -2931763954000,
   -2913843497000, -2895693315000, -2877316381000, -2858713262000, -2839885534000]

def w22 : List Int :=
  [-2820834107000, -2801560426000, -2782065489000, -2762350741000, -2742417379000,
   -2722266737000, -2701899978000, -2681318423000, -2660523289000, -2639515906000,
   -2618297485000, -2596869414000, -2575232824000, -2553388932000, -2531339501000,
   -2509085367000, -2486627959000, -2463968522000, -2441108406000, -2418048990000,
   -2394791373000, -2371337037000, -2347687450000, -2323843565000, -2299807064000,
   -2275578980000, -2251160867000, -2226553908000, -2201759508000, -2176779040000,
   -2151613805000, -2126265203000, -2100734562000, -2075023218000, -2049132451000,
   -2023063923000, -1996818639000, -1970398300000, -1943804150000, -1917037474000,
   -1890099853000, -1862992551000, -1835717066000, -1808274679000, -1780666762000,
   -1752895042000, -1724960631000, -1696865042000, -1668609664000, -1640195998000,
   -1611625442000, -1582899470000, -1554019448000, -1524986940000, -1495803236000,
   -1466469962000, -1436988504000, -1407360367000, -1377586994000, -1347669883000,
   -1317610455000, -1287410366000, -1257070907000, -1226593776000, -1195980339000,
   -1165232134000, -1134350715000, -1103337476000, -1072194106000, -1040920936000,
   -1009523156000, -977998544500, -946349785000, -914578794800, -882686785200, -850675478500,
   -818546408900, -786301163800, -753941356500, -721468558000, -688884366600, -656190400400,
   -623388279300, -590479576700, -557465969100, -524349063700, -491130512000, -457811959300,
   -424395044400, -390881420700, -357272773300, -323570708500, -289777075000, -255893394200,
   -221921418400, -187862835400, -153719368800, -119492726100, -85184636010, -50796825480]

def w23 : List Int :=
  [-16331037470, 18210984130, 52827485240, 87516701970, 122276864800, 157106196600, 192002939700,
   226965198400, 261991282500, 297079330600, 332227534100, 367434104200, 402697064200,
   438014703600, 473385129100, 508806457800, 544276867500, 579794398400, 615357225600,
   650963380400, 686611025000, 722298174300, 758022946300, 793783372000, 829577503600,
   865403388300, 901259006800, 937142500300, 973051759600, 1008984795000, 1044939651000,
   1080914230000, 1116906555000, 1152914530000, 1188936140000, 1224969296000, 1261011879000,
   1297061875000, 1333117114000, 1369175495000, 1405234891000, 1441293150000, 1477348154000,
   1513397674000, 1549439585000, 1585471624000, 1621491674000, 1657497448000, 1693486707000,
   1729457248000, 1765406855000, 1801333077000, 1837233660000, 1873106448000, 1908949073000,
   1944759291000, 1980534221000, 2016272097000, 2051969846000, 2087626510000, 2123238241000,
   2158803108000, 2194318606000, 2229782309000, 2265191699000, 2300544352000, 2335837716000,
   2371069139000, 2406236258000, 2441336406000, 2476383991000, 2511325303000, 2546208938000,
   2581015027000, 2615741058000, 2650384209000, 2684941917000, 2719411320000, 2753789734000,
   2788074262000, 2822262386000, 2856351000000, 2890337321000, 2924218602000, 2957991856000,
   2991654198000, 3025202605000, 3058634252000, 3091946062000, 3125135048000, 3158198165000,
   3191132360000, 3223934033000, 3256601500000, 3289130104000, 3321517166000, 3353759845000,
   3385854103000, 3417797321000, 3449586149000]

def w24 : List Int :=
  [3481217023000, 3512686662000, 3543991717000, 3575128706000, 3606094332000, 3636884632000,
   3667496497000, 3697926254000, 3728170254000, 3758224899000, 3788086383000, 3817751082000,
   3847215191000, 3876474977000, 3905526423000, 3934365774000, 3962989036000, 3991392244000,
   4019571151000, 4047522327000, 4075240922000, 4102723130000, 4129964593000, 4156960891000,
   4183708254000, 4210201754000, 4236437250000, 4262409870000, 4288115477000, 4313549225000,
   4338706653000, 4363582581000, 4388172568000, 4412471780000, 4436475395000, 4460177607000,
   4483574199000, 4506659619000, 4529429115000, 4551876351000, 4573997077000, 4595785156000,
   4617235283000, 4638341753000, 4659098741000, 4679500617000, 4699541217000, 4719214823000,
   4738514962000, 4757435692000, 4775970594000, 4794113195000, 4811856945000, 4829194772000,
   4846121218000, 4862627967000, 4878708666000, 4894355502000, 4909561368000, 4924319211000,
   4938621066000, 4952459111000, 4965825668000, 4978712169000, 4991110738000, 5003012703000,
   5014409179000, 5025291726000, 5035651018000, 5045496464000, 5054762591000, 5063495478000,
   5071666798000, 5079265974000, 5086282626000, 5092706183000, 5098524857000, 5103728067000,
   5108303492000, 5112239517000, 5115523527000, 5118142359000, 5120083321000, 5121332609000,
   5121876494000, 5121699389000, 5120787598000, 5119124796000, 5116695054000, 5113481601000,
   5109467169000, 5104633625000, 5098962183000, 5092433790000, 5085027255000, 5076721727000,
   5067495012000, 5057323738000, 5046183546000, 5034048642000]

def w25 : List Int :=
  [5020891692000, 5006685314000, 4991398264000, 4974999126000, 4957453965000, 4938728667000,
   4918779939000, 4897569877000, 4875054439000, 4851185603000, 4825911479000, 4799176074000,
   4770917364000, 4741068292000, 4709554055000, 4676290435000, 4641184040000, 4604127475000,
   4564998509000, 4523650650000, 4479915280000, 4433580292000, 4384383920000, 4331979703000,
   4275884027000, 4215343929000, 4148919142000, 4071575495000, 3989589393000, 3908056713000,
   3826976782000, 3746348759000, 3666172204000, 3586446286000, 3507171380000, 3428343774000,
   3349966128000, 3272035838000, 3194553132000, 3117516789000, 3040926436000, 2964781370000,
   2889080242000, 2813823933000, 2739010287000, 2664639084000, 2590709605000, 2517221247000,
   2444173870000, 2371564913000, 2299395698000, 2227664542000, 2156371150000, 2085514592000,
   2015094486000, 1945109550000, 1875559601000, 1806443780000, 1737761414000, 1669511780000,
   1601694545000, 1534307895000, 1467352321000, 1400826640000, 1334730194000, 1269062307000,
   1203822261000, 1139009356000, 1074622856000, 1010662139000, 947126425500, 884015033300,
   821327269200, 759062397500, 697219765500, 635798583300, 574798224800, 514217927600,
   454057042900, 394314762200, 334990463200, 276083401600, 217592868100, 159518153800,
   101858542700, 44613317000, -12218232640, -68636822440, -124643171100, -180237988100,
   -235422003200, -290195917300, -344560471600, -398516359100, -452064315300, -505205055800,
   -557939313400, -610267798100, -662191233500, -713710356100]

def w26 : List Int :=
  [-764825875500, -815538523700, -865849046700, -915758081900, -965266287800, -1014374872000,
   -1063084075000, -1111394718000, -1159307636000, -1206823469000, -1253943008000,
   -1300666951000, -1346996035000, -1392926982000, -1438472845000, -1483621251000,
   -1528378634000, -1572744514000, -1616719856000, -1660305687000, -1703502425000,
   -1746311046000, -1788732158000, -1830766462000, -1872414872000, -1913678067000,
   -1954556602000, -1995051449000, -2035163556000, -2074892838000, -2114240905000,
   -2153208074000, -2191795450000, -2230003440000, -2267832883000, -2305284632000,
   -2342359251000, -2379057799000, -2415380558000, -2451328705000, -2486903057000,
   -2522103734000, -2556932106000, -2591388831000, -2625474507000, -2659189965000,
   -2692536048000, -2725513386000, -2758122855000, -2790365115000, -2822240579000,
   -2853751227000, -2884896622000, -2915677959000, -2946095802000, -2976151472000,
   -3005844860000, -3035177297000, -3064148730000, -3092762720000, -3121016832000,
   -3148913017000, -3176452094000, -3203634710000, -3230461886000, -3256934182000,
   -3283052418000, -3308817427000, -3334229876000, -3359290716000, -3384000315000,
   -3408360332000, -3432370808000, -3456032636000, -3479346872000, -3502313994000,
   -3524934683000, -3547210289000, -3569141233000, -3590728291000, -3611972312000,
   -3632874191000, -3653434600000, -3673654373000, -3693534306000, -3713075113000,
   -3732277708000, -3751142949000, -3769671425000, -3787864087000, -3805721488000,
   -3823245196000, -3840435213000, -3857292557000, -3873818163000, -3890012733000,
   -3905877112000, -3921411860000, -3936618535000, -3951497277000]

def w27 : List Int :=
  [-3965965999000, -3980274661000, -3994175030000, -4007750989000, -4021002937000,
   -4033932392000, -4046539646000, -4058825768000, -4070791497000, -4082437654000,
   -4093764790000, -4104774696000, -4115467180000, -4125843448000, -4135904292000,
   -4145650599000, -4155083121000, -4164202805000, -4173010423000, -4181506732000,
   -4189692655000, -4197569036000, -4205136750000, -4212396540000, -4219349321000,
   -4225996082000, -4232337297000, -4238373989000, -4244107227000, -4249537758000,
   -4254666152000, -4259493702000, -4264020748000, -4268248474000, -4272177750000,
   -4275809368000, -4279144198000, -4282183090000, -4284926839000, -4287376385000,
   -4289532818000, -4291396611000, -4292967315000, -4294250281000, -4295241873000,
   -4295944341000, -4296358952000, -4296486157000, -4296327289000, -4295882461000,
   -4295153283000, -4294140299000, -4292844490000, -4291266726000, -4289407894000,
   -4287268877000, -4284850470000, -4282153711000, -4279179581000, -4275928025000,
   -4272402092000, -4268600634000, -4264525022000, -4260176744000, -4255556313000,
   -4250664500000, -4245502499000, -4240070906000, -4234369804000, -4228403237000,
   -4222168792000, -4215668712000, -4208903714000, -4201874771000, -4194582879000,
   -4187028715000, -4179213825000, -4171137861000, -4162803019000, -4154209327000,
   -4145358943000, -4136251312000, -4126888458000, -4117270655000, -4107399148000,
   -4097274847000, -4086898657000, -4076271404000, -4065394284000, -4054267938000,
   -4042893696000, -4031272335000, -4019404474000, -4007291418000, -3994934088000,
   -3982333711000, -3969490299000, -3956405785000, -3943080760000, -3929516177000]

def w28 : List Int :=
  [-3915713067000, -3901672388000, -3887395085000, -3872882153000, -3858134491000,
   -3843153075000, -3827939005000, -3812493181000, -3796816558000, -3780910249000,
   -3764774999000, -3748412066000, -3731822196000, -3715006566000, -3697966219000,
   -3680701723000, -3663214594000, -3645452255000, -3627575606000, -3609426031000,
   -3591057448000, -3572470893000, -3553667934000, -3534648962000, -3515415439000,
   -3495967641000, -3476307086000, -3456435516000, -3436352853000, -3416060508000,
   -3395559549000, -3374850931000, -3353936063000, -3332815078000, -3311489865000,
   -3289961230000, -3268230136000, -3246297733000, -3224165006000, -3201832988000,
   -3179302898000, -3156575283000, -3133651870000, -3110533456000, -3087221204000,
   -3063715636000, -3040018428000, -3016130457000, -2992053149000, -2967786610000,
   -2943332804000, -2918692554000, -2893867056000, -2868857231000, -2843664217000,
   -2818289128000, -2792733058000, -2766997087000, -2741082124000, -2714989838000,
   -2688720998000, -2662276524000, -2635657728000, -2608865750000, -2581901620000,
   -2554766579000, -2527461647000, -2499987893000, -2472346697000, -2444539049000,
   -2416565952000, -2388428795000, -2360128579000, -2331666485000, -2303043697000,
   -2274261255000, -2245320460000, -2216222294000, -2186968306000, -2157559142000,
   -2127996108000, -2098280943000, -2068414104000, -2038397101000, -2008231036000,
   -1977917191000, -1947456830000, -1916850652000, -1886100502000, -1855207141000,
   -1824171986000, -1792996279000, -1761681099000, -1730227720000, -1698637367000,
   -1666911266000, -1635050648000, -1603056778000, -1570930773000, -1538673994000]

def w29 : List Int :=
  [-1506287617000, -1473772845000, -1441131245000, -1408363703000, -1375471599000,
   -1342456230000, -1309318931000, -1276060709000, -1242683065000, -1209187348000,
   -1175574669000, -1141846455000, -1108003821000, -1074048223000, -1039980925000,
   -1005803218000, -971516144300, -937121879100, -902620861600, -868014762900, -833304855800,
   -798492515200, -763578988300, -728565811900, -693454075200, -658245360500, -622940924800,
   -587542159400, -552050424000, -516467093400, -480793537500, -445031169600, -409181360100,
   -373245518100, -337225032900, -301121302100, -264935755100, -228669802600, -192324874600,
   -155902387900, -119403772200, -82830495280, -46183975700, -9465667096, 27322969040,
   64180465200, 101105360300, 138096167900, 175151423000, 212269645600, 249449317900,
   286688957200, 323987043800, 361342082400, 398752552400, 436216919600, 473733654500,
   511301232200, 548918069800, 586582708900, 624293440400, 662048854000, 699847291200,
   737687133300, 775566923700, 813485024300, 851439770200, 889429644900, 927452875800,
   965508001300, 1003593323000, 1041707250000, 1079848083000, 1118014180000, 1156203874000,
   1194415738000, 1232647452000, 1270897954000, 1309165312000, 1347447889000, 1385743905000,
   1424051704000, 1462369521000, 1500695593000, 1539028230000, 1577365695000, 1615706172000,
   1654047890000, 1692389147000, 1730727962000, 1769062718000, 1807391523000, 1845712622000,
   1884024214000, 1922324214000, 1960611014000, 1998882735000, 2037137417000, 2075373262000,
   2113588207000]

def w30 : List Int :=
  [2151780691000]

/-- The second entries of `NegLinearInt` in units of 10⁻¹⁰, NegativeBosonSpline.cpp:16-1017. -/
def pairOrdinates : List Int :=
    [w00, w01, w02, w03, w04, w05, w06, w07, w08, w09, w10, w11,
    w12, w13, w14, w15, w16, w17, w18, w19, w20, w21, w22, w23,
    w24, w25, w26, w27, w28, w29, w30].flatten

end Verif.Thermal.Table
