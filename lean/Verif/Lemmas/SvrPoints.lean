import Verif.Lemmas.SvrValue

/-! # The default model at given similarities, evaluated by the kernel -/

namespace Visqol.Svr

/-- Similarities: the third band at one half, the others perfect (what they miss to 1, in units of `10^-11`). -/
def thirdW : List Nat := [0, 0, 50000000000, 0, 0, 0, 0, 0, 0, 0, 0, 0, 0, 0, 0, 0, 0, 0, 0, 0, 0, 0, 0, 0, 0, 0, 0, 0, 0, 0, 0, 0]

def thirdD : List Nat := [
  2500000000000000000000, 8892537080411058000000, 2926530372423469000000, 31108245345316223000000, 2851298107326637000000, 6847633715415908000000, 3007343333557238000000, 11781504566348618000000, 110430151003504717430000, 61145297158369315170000, 2500000000000000000000, 8921070255928923000000,
  2433726124180649000000, 29634879328858644000000, 9424384028911041000000, 5848069054320643000000, 129329358130861268460000, 92555805225281866880000, 2500000000000000000000, 6830843128082957000000, 2500234193192053000000, 4059068177654296000000, 3250996741114203000000, 3697624260981478000000,
  19260221326824177000000, 3825667794007289000000, 2454629523090815000000, 3394216451058423000000, 16225125293234540000000, 4098315995014823000000, 4149835159161426000000, 62844078969128263000000, 27481236130848713000000, 2500000000000000000000, 4163699097907942000000, 2696740166290986000000,
  26913499937916132000000, 4607585168014519000000, 3601333045214722000000, 5664399355750798000000, 47822408160667012000000, 2587816051425169000000, 7947564908069143000000, 2500193061747187000000, 2795660302821143000000, 2656649145591236000000, 11092896584568519000000, 2709698401796110000000,
  7397273193297552000000, 2266713503101981000000, 12267009908418027000000, 2707078321810386000000, 8983005911145929000000, 3201288849426010000000, 49716913540935852000000, 2555720972966488000000, 4521766337030329000000, 3939167203852669000000, 2802970016087541000000, 2722381056772206000000,
  9463351449316555000000, 5186137350121973000000, 9331611276006198000000, 3364598390614832000000, 8191853534584132000000, 11617158490403394000000, 41662433278466737000000, 6261793625308090000000, 2522914697649821000000, 5114808142347987000000, 2729712828675722000000, 8244328829316599000000,
  46343697321965070000000, 10831455031625987000000, 3492266873393469000000, 25617930011549520000000, 2545921737248838000000, 8702893785637956000000, 2895224518200448000000, 13322739780800548000000, 123379427402972806208500, 73361316568836241818164, 6574877126363859000000, 33359322026778315000000,
  5504598557942363000000, 6928488095076915000000, 18055939079855273000000, 3528775967046879000000, 5027062738215045000000, 41391272898862750000000, 3485915114887099000000, 20779735602708869000000, 65350795754114539120000, 3382309480745354000000, 7032365208434503000000, 27719174445155470000000,
  39224217952487540000000, 20671006258385904000000, 2711328661660046000000, 52729445830793600450000, 14854168618798562000000, 35644907974927460410000, 3477600599731960000000, 2509698946979470000000, 4313882033724794000000, 2501514340924635000000, 2709946716213010000000, 25732134451886725000000,
  12899599756327432000000, 2951210980199075000000, 6418270045701463000000, 56695180184874333000000, 4139868077551916000000, 8718641294622103000000, 41846113736554014010000, 2616112480131004000000, 3542174819750343000000, 40572795614584944000000, 2979149673786910000000, 4862700133338108000000,
  17744837483979003000000, 3989164150420007000000, 5994348991848771000000, 37995138475073014000000, 4545560892641176000000, 8035668741368534000000, 23588795373453199000000, 52927354057180857416100, 14007637681119986000000, 4601197167388729000000, 3216353848063453000000, 21063189844805446000000,
  3084194145787782000000, 11496258677334099000000, 3502199734745978000000, 8700540473444168000000, 4920392792802523000000, 2798450207834692000000, 18948107229024747000000, 3184231960426896000000, 5198865048892707000000, 2740393242509821000000, 3664256502623304000000, 32681187055567718000000,
  15544164398383090000000, 45856798444232395040000, 3221541450243073000000, 14326254726630590000000, 2588787982011658000000, 3132526398632404000000, 70007437207485502460000, 2617905776977476000000, 3649300444407829000000, 3579332417500887000000, 4992137807569708000000, 29985065291474645000000,
  5144760463472739000000, 10847534676693090000000, 7330893597913198000000, 56233309799138886000000, 3694314816534020000000, 2933631145055907000000, 32751128828884710000000, 4297610241501856000000, 15054460898405970000000, 67297165776038857910000, 4186605371976557000000, 3872397092530197000000,
  46983134775298642000000, 3063856654317317000000, 24648028112835067000000, 34792612805942224000000, 18930724196925542000000, 2773442214798906000000, 73102302764932899580000, 3220457881817335000000, 6585092746877633000000, 35280835158756066360000, 2739321844233463000000, 84917652389256131290000,
  2603082246084591000000, 11286095055634073000000, 51036918687862535890000, 15474539163886722960000, 27934782326070481840000, 2789215029323034000000, 27441846771091154000000, 2748978685321035000000, 3462960418075722000000, 15086721595843012000000, 2537611728656706000000, 2668464279290503000000,
  39483213087286971850000, 2575408193280504000000, 2691645864809292000000, 6627958798936000000000, 2631589265368274000000, 9113680350667735000000, 2633610922545609000000, 3708234807119110000000, 61060538997700542760000, 5144848115989371000000, 30050733769435899000000, 2598300627670803000000,
  4775661784055584000000, 45412204991515932440000, 3348363408815661000000, 27123560400821888000000, 2834641843542302000000, 7098903527876162000000, 40676208383711854000000, 6360812927944836000000, 8481031284131701000000, 2541962701735283000000, 61165543485682927650000, 3745370740893636000000,
  44653405388746655010000, 2927856985961301000000, 32459405761084233000000, 3188294446421066000000, 16514210289246082000000, 2602050306161368000000, 4185364475092726000000, 49255177141836073880000, 39497641229344278240000, 2587954491522383000000, 33356084909986654000000, 2508861652000904000000,
  2615297910595195000000, 14189858382498533000000, 2523503884546617000000, 7109036801831269000000, 51052459316278746000000, 31794955878146066000000, 2677566081019339000000, 10071174542592386000000, 88141971816321837100000, 25898022658338564760000, 73478356656622900500000, 2473785753577932000000,
  2982127222036801000000, 40449124234682642000000, 3447516109305289000000, 9797202543636740000000, 13714902418141752000000, 6598421439222777000000, 65834260075121778340000, 4432785508646795000000, 8490560825327894000000, 40111797749925671730000, 8892547602219849000000, 2686145869351609000000,
  5025403083816091000000, 2601502865852829000000, 6847630774020174000000, 3558703587327820000000, 3007345412464488000000, 3234579913181450000000, 110038553073275427300000, 8921151920992250000000, 1720137103687586000000, 5873177361342925000000, 1215165268986923000000, 9424511697325208000000,
  6171867230005861000000, 5848109469369757000000, 4586214941913420000000, 129736423944918372260000, 2451035490856425000000, 3246409012225531000000, 4041578027559998000000, 3697629746366656000000, 7913296347133406000000, 3060290704207428000000, 7762187481478595000000, 3825564644591858000000,
  12532319194752794000000, 2454613058283173000000, 10565504384344114000000, 69195104640726496960000, 4101582660533347000000, 3022625495651839000000, 2883361940033529000000, 62222564617771946000000, 2500000000000000000000, 4156359514777606000000, 2902083027889148000000, 4600982768244659000000,
  12150215352212489000000, 6660022295711418000000, 2561656022840667000000, 2492039595800155000000, 5858920719296301000000, 3673527837713394000000, 3296667903818304000000, 2994328536077674000000, 6478080837977688000000, 2980576848780271000000, 4385299066407230000000, 2558922796549289000000,
  9374141328715741000000, 4157978612495114000000, 3824866572830017000000, 3562976173579932000000, 51046272494535967000000, 6273806670208206000000, 4040838093504322000000, 2475316756808387000000, 5121660014278308000000, 2730460208911952000000, 2577753618892211000000, 10831472786534780000000,
  5368746918206305000000, 8702872478573546000000, 3862155603017161000000, 2895229525576768000000, 123308982270517685610500]

def thirdK : List Nat := [
  997503122397460, 991146884588027, 997077747743224, 969370637537336, 997152762982412, 993175757905463, 996997174193685, 988287625606426, 895448874210418, 940686550763245, 997503122397460, 991118604423468,
  997569232986201, 970799927967450, 990619886295583, 994168997616281, 878684515992113, 911598337594378, 997503122397460, 993192434049764, 997502888789047, 995949158704658, 996754282026822, 996309203533474,
  980924071664777, 996181640750036, 997548380616527, 996611537389831, 983905793040380, 995910070641042, 995858763508299, 939089886137574, 972892937617965, 997503122397460, 995844957079108, 997306892771041,
  973445440973734, 995403013468237, 996405143976998, 994351613106354, 953303070891149, 997415529458056, 992083933485502, 997502929817783, 997208243916305, 997346876623814, 988968402721089, 997293969517185,
  992630019293925, 997735853551991, 987807923143170, 997296582510578, 991057220744245, 996803829812161, 951498742788635, 997447542101451, 995488441456824, 996068581137933, 997200954636617, 997281321262067,
  990581285146110, 994827287442552, 990711793092674, 996641055527717, 991841608263856, 988450060146974, 959193517739062, 993757770547490, 997480265176889, 994898250215666, 997274009449700, 991789562448707,
  954713773228009, 989226993957882, 996513823998184, 974707424929729, 997457316372922, 991334866773041, 997108962602445, 986765615105208, 883928212339319, 929265010515730, 993446690085107, 967190964125907,
  994510523984134, 993095458541984, 982106092710531, 996477442845782, 994985551794803, 959453648284401, 996520153633445, 979434675400342, 936738801739855, 996623404084469, 992992304010253, 972661476650195,
  961535091545130, 979541174480088, 997292343670179, 948636635362296, 985255610313447, 964982890381515, 996528439249810, 997493447714481, 995695409389872, 997501611838803, 997293721874745, 974596115369916,
  987183243483142, 997053139562084, 993602283054198, 944882044244111, 995868689363332, 991319255841238, 959017348814219, 997387306559942, 996464091280751, 960239260759964, 997025283589058, 995149103652447,
  982411675014400, 996018781995218, 994023581273424, 962717621155535, 995464754533555, 991996530938314, 976687245509614, 948448910945022, 986090012793027, 995409372123620, 996788813076937, 979157089830006,
  996920557095138, 988569570798736, 996503925813693, 991337199696217, 995091692510211, 997205461803907, 981230279679848, 996820832329444, 994814625661086, 997263358207453, 996342448692882, 967847072582421,
  984576022583814, 955178735478363, 996783642146530, 985775877753590, 997414560039866, 996872374843094, 932386885525437, 997385517950034, 996357350159981, 996427065756769, 995020302203017, 970460026977918,
  994868451150067, 989211087666813, 992695911859909, 945318558077006, 996312500768891, 997070667745977, 967779382009092, 995711611270507, 985058290982690, 934917334617307, 995822146242848, 996135090968390,
  954103488624405, 996940832164636, 975653254118477, 965805691221924, 981247336585546, 997230400222979, 929505734154965, 996784722230397, 993436541462558, 965334278381502, 997264426674268, 918587924807877,
  997400302834653, 988777353993507, 950243588138409, 984644576306772, 972451785776682, 997214671216885, 972931260002632, 997254796296677, 996543028713982, 985026512827802, 997465605286232, 997335092906736,
  961286090880853, 997427905325235, 997311973365964, 993393957672761, 997371870330252, 990927723358573, 997369853988290, 996298632204786, 940766285004070, 994868363947348, 970396300437460, 997405072033709,
  995235723557291, 955603496106231, 996657236108460, 973240980049120, 997169371960187, 992926234169238, 960139964893304, 993659374217709, 991554831206442, 997461265349678, 940667505508238, 996261634411739,
  956328882836258, 997076425007263, 968061746763519, 996816782767000, 983621401746731, 997401332092376, 995823381956212, 951938185837496, 961272221408632, 997415391375762, 967194095041085, 997494282911085,
  997388119001588, 985910343149534, 997479677474760, 992916172626668, 950228820870647, 968705189021726, 997326015401774, 989979369912752, 915630873716940, 974434454777486, 929156255621787, 997529271532855,
  997022314902590, 960358022217924, 996558419751072, 990250633697296, 986378718367331, 993423300340776, 936286031409080, 995577024784041, 991545382188852, 960682031058977, 991146874159369, 997317458592371,
  994987203128321, 997401878110219, 993175760826786, 996447621093504, 996997172121021, 996770645704681, 895799598803215, 991118523483708, 998281341484227, 994144036029230, 998785572745361, 990619759824721,
  993847139619858, 994168957436893, 995424285682992, 878326906354578, 997551965844005, 996758854875726, 995966578157264, 996309198068334, 992117931356756, 996944387212244, 992267860499485, 996181743505595,
  987545883290385, 997548397040969, 989490114504223, 933144601474372, 995906817341269, 996981938037682, 997120790955612, 939673725392466, 997503122397460, 995852266192778, 997102123944416, 995409585538560,
  987923300468760, 993362106499435, 997441622218109, 997511062957110, 994158209285926, 996333211310998, 996708760139358, 997010149994434, 993542856691627, 997023860660521, 995624302317436, 997444348455501,
  990669658963884, 995850653811952, 996182438912183, 996443363694192, 950234699785163, 993745832562479, 995967315107126, 997527744313487, 994891433323627, 997273264107094, 997425565935024, 989226976394247,
  994645639047146, 991334887895478, 996145292927720, 997108957609545, 883990482972624]

theorem third_d : dists cols thirdW = thirdD := by decide +kernel

theorem third_k : thirdD.map expNat = thirdK := by decide +kernel

theorem third_s : thirdD.all (fun x => decide (x ≤ 4 * 10 ^ 23)) = true := by decide +kernel

theorem third_a : dot2 pos thirdK = 154145783071321220505867365580172780 := by decide +kernel

theorem third_b : dot2 neg thirdK = 153092284670239817320805451203534006 := by decide +kernel

/-- Similarities: the lower 24 bands at zero, the others perfect (what they miss to 1, in units of `10^-11`). -/
def highW : List Nat := [100000000000, 100000000000, 100000000000, 100000000000, 100000000000, 100000000000, 100000000000, 100000000000, 100000000000, 100000000000, 100000000000, 100000000000, 100000000000, 100000000000, 100000000000, 100000000000, 100000000000, 100000000000, 100000000000, 100000000000, 100000000000, 100000000000, 100000000000, 100000000000, 0, 0, 0, 0, 0, 0, 0, 0]

def highD : List Nat := [
  240000000000000000000000, 243653513480411058000000, 237344794472423469000000, 221582315445316223000000, 239957414007326637000000, 232060223315415908000000, 231780050533557238000000, 235377865566348618000000, 247338536363504717430000, 295144477358369315170000, 240000000000000000000000, 240171258855928923000000,
  232623687524180649000000, 175332032228858644000000, 218310392828911041000000, 226682754254320643000000, 227638773990861268460000, 287255281725281866880000, 240000000000000000000000, 216172013828082957000000, 239873004393192053000000, 226687163377654296000000, 237196840141114203000000, 238755511560981478000000,
  207476371726824177000000, 235182392594007289000000, 235461584523090815000000, 226173428851058423000000, 225209376193234540000000, 240190213495014823000000, 236238456859161426000000, 215769494569128263000000, 261262326530848713000000, 240000000000000000000000, 240522368397907942000000, 234041355666290986000000,
  225427892737916132000000, 237638054468014519000000, 238127181245214722000000, 234231658355750798000000, 268962371760667012000000, 238193070851425169000000, 207086867508069143000000, 239795320861747187000000, 232980853702821143000000, 235495122745591236000000, 210080113084568519000000, 239416861201796110000000,
  244391208493297552000000, 236505026303101981000000, 230568859708418027000000, 240115363421810386000000, 242858681011145929000000, 238394925549426010000000, 227947044240935852000000, 239688860872966488000000, 231777278437030329000000, 239483926003852669000000, 238958014516087541000000, 238005497756772206000000,
  216681731749316555000000, 239306262950121973000000, 244893556976006198000000, 238514292590614832000000, 234445833434584132000000, 240002536390403394000000, 274073186378466737000000, 242782251425308090000000, 238575760897649821000000, 236544937842347987000000, 236570721528675722000000, 235308125529316599000000,
  276169490121965070000000, 247623204631625987000000, 230819417873393469000000, 237633551911549520000000, 239904470537248838000000, 242483192085637956000000, 236882630518200448000000, 245465328480800548000000, 258678096066972806208500, 301431922068836241818164, 242399331226363859000000, 251558450226778315000000,
  240013676057942363000000, 241386217395076915000000, 251582662779855273000000, 239128538967046879000000, 240290827538215045000000, 260069997998862750000000, 236439184714887099000000, 254532903602708869000000, 282257276354114539120000, 236420191480745354000000, 240341601208434503000000, 259132857945155470000000,
  246083090352487540000000, 251104946058385904000000, 237940891161660046000000, 267860206230793600450000, 247415472518798562000000, 266791679674927460410000, 238336540699731960000000, 239197524946979470000000, 231964331433724794000000, 238005891240924635000000, 238521368416213010000000, 241874362651886725000000,
  246139113356327432000000, 238223643380199075000000, 241438818045701463000000, 269794748884874333000000, 239223932877551916000000, 244941950094622103000000, 276103419936554014010000, 238561479280131004000000, 238569199219750343000000, 264861418314584944000000, 237142863273786910000000, 239847628433338108000000,
  251190873783979003000000, 238965411350420007000000, 242322013691848771000000, 256499795575073014000000, 239499619492641176000000, 244370072741368534000000, 256117621273453199000000, 268828986557180857416100, 244774892081119986000000, 233452175667388729000000, 239441707048063453000000, 248708802744805446000000,
  239370793345787782000000, 247001130477334099000000, 240070375234745978000000, 221379017973444168000000, 237164248292802523000000, 238825716607834692000000, 235388384129024747000000, 234463695760426896000000, 237916739648892707000000, 237500931942509821000000, 239001085902623304000000, 255510901155567718000000,
  250119416898383090000000, 263767483944232395040000, 238158279550243073000000, 248901461326630590000000, 238558176682011658000000, 239048169098632404000000, 286062384007485502460000, 237732033976977476000000, 237455063944407829000000, 239323893517500887000000, 239449630507569708000000, 249368662391474645000000,
  238039276063472739000000, 242803761276693090000000, 242374387497913198000000, 272516174099138886000000, 236355964116534020000000, 237796387945055907000000, 248314135028884710000000, 235325453241501856000000, 246136975898405970000000, 267626332776038857910000, 236617398171976557000000, 239206371392530197000000,
  256791741575298642000000, 235636523654317317000000, 258090984312835067000000, 243545209105942224000000, 247932905896925542000000, 235576031014798906000000, 278147709664932899580000, 231551529581817335000000, 237508853146877633000000, 265107710958756066360000, 237863738544233463000000, 302414594189256131290000,
  235243289646084591000000, 244869647655634073000000, 246159473187862535890000, 247063969263886722960000, 259512630426070481840000, 233925273729323034000000, 236681604371091154000000, 234011198285321035000000, 235214539418075722000000, 245887397195843012000000, 235989540128656706000000, 238854431379290503000000,
  261053023687286971850000, 237786228293280504000000, 238337593164809292000000, 240890149598936000000000, 238991822465368274000000, 224273958550667735000000, 237458611222545609000000, 237861259807119110000000, 277750982397700542760000, 240754653415989371000000, 261207906869435899000000, 237364162527670803000000,
  230386054784055584000000, 251904154991515932440000, 226140383608815661000000, 252986012900821888000000, 231846733743542302000000, 243186426727876162000000, 254228252183711854000000, 241045850627944836000000, 244724749584131701000000, 236315226201735283000000, 273697086485682927650000, 234375512440893636000000,
  276653558188746655010000, 235510517985961301000000, 245261379661084233000000, 235572170946421066000000, 247802656489246082000000, 237430404106161368000000, 237138668775092726000000, 266844658241836073880000, 269446040629344278240000, 238449458291522383000000, 255450347709986654000000, 238597904252000904000000,
  239187529510595195000000, 249361699382498533000000, 239169762984546617000000, 241802161001831269000000, 264700550216278746000000, 260384553978146066000000, 237461299281019339000000, 244590708042592386000000, 278064088316321837100000, 252246844958338564760000, 293766582756622900500000, 231789721353577932000000,
  236410791122036801000000, 252018369134682642000000, 232962138809305289000000, 240015897843636740000000, 247166286718141752000000, 238198308139222777000000, 281380797075121778340000, 235555006708646795000000, 241531367125327894000000, 270825913849925671730000, 243653492202219849000000, 238791938669351609000000,
  240799040883816091000000, 239117525665852829000000, 232060272574020174000000, 230476835887327820000000, 231780050412464488000000, 234965497013181450000000, 247614262593275427300000, 240171247920992250000000, 233974655003687586000000, 238825869861342925000000, 233871285268986923000000, 218310243497325208000000,
  220827544530005861000000, 226682995869369757000000, 229727242041913420000000, 227965053864918372260000, 238398558090856425000000, 228938396112225531000000, 226858971427559998000000, 238755615346366656000000, 199907396047133406000000, 238601671504207428000000, 199971223181478595000000, 235182010544591858000000,
  186769215394752794000000, 235460374458283173000000, 194159814484344114000000, 165955023720726496960000, 240173283660533347000000, 239763738895651839000000, 236766264640033529000000, 216286610117771946000000, 240000000000000000000000, 240527684614777606000000, 239586395227889148000000, 237644874268244659000000,
  208718310052212489000000, 242860111295711418000000, 238949792622840667000000, 239248090395800155000000, 235665482319296301000000, 235267905237713394000000, 236026263403818304000000, 236600639736077674000000, 241166816037977688000000, 238011010548780271000000, 240224151766407230000000, 238291541296549289000000,
  231277938128715741000000, 230118500912495114000000, 233598968772830017000000, 231941113173579932000000, 227862502494535967000000, 242794264470208206000000, 240908590793504322000000, 238980225956808387000000, 236558759014278308000000, 236574026108911952000000, 234107071618892211000000, 247623230386534780000000,
  242448421818206305000000, 242483186678573546000000, 226202975303017161000000, 236882616325576768000000, 258987452104517685610500]

def highK : List Nat := [
  786627861066382, 783759149201617, 788719295076083, 801249964185603, 786661361108021, 792898370899988, 793120550565190, 790272176559449, 780876293758365, 744424027277776, 786627861066382, 786493155613933,
  792451726892568, 839178340251579, 803875885628060, 797173642125100, 796411892571596, 750320161359937, 786627861066382, 805596716179392, 786727765692521, 797170127295942, 788835998145127, 787607419743598,
  812632442647561, 790426668509769, 790206018566662, 797579766327755, 798349045974777, 786478248061308, 789592367766065, 805921049643459, 770078880994462, 786627861066382, 786217058835236, 791329089276997,
  798174612558788, 788488029171261, 788102452868223, 791178511551186, 764172009553950, 788050526818662, 812949028063945, 786788883857553, 792168740477111, 790179516905802, 810519310167032, 787086708064663,
  783181187191997, 789381914619083, 794081752881477, 786537118218940, 784382354060411, 787891471171165, 796166420316150, 786872649852086, 793122749174961, 787033924020380, 787447943061430, 788198357758842,
  805186193730080, 787173763292481, 782787856113827, 787797428510381, 791009078975867, 786625865873554, 760276431345431, 784442306369907, 787749005424422, 789350409800525, 789330057699533, 790327292092165,
  758684330362920, 780654034692754, 793882814138538, 788491579391127, 786703010792785, 784676936250442, 789083896950703, 782340408254555, 772071515903329, 739758185845628, 784742742691823, 777588006085885,
  786617103171738, 785538179284324, 777569178922943, 787313675381565, 786399121285580, 770997615624083, 789433890489118, 775278543213606, 754079652709635, 789448884534232, 786359193929573, 771720487033983,
  781857257431094, 777940725461750, 788249282216020, 765014717918544, 780816218449574, 765832593343277, 787937473439190, 787259363649550, 792974407062331, 788198047615340, 787791854212892, 785154816124126,
  781813456665895, 788026434489539, 785496860551709, 763536194909713, 787238574033439, 782749975484843, 758734458433265, 787760255834755, 787754174396620, 767312278036397, 788878578190301, 786747729918024,
  777873881656473, 787442118460991, 784803419411574, 773755152733964, 787021572809235, 783197740490217, 774050918582544, 764273945591174, 782880751064068, 791795461924179, 787067152472254, 779807017988689,
  787122968297006, 781139810469799, 786572503893911, 801412872836558, 788861708187289, 787552127668706, 790263864075746, 790994949840144, 788268319858516, 788596156054299, 787414027317101, 774520693343612,
  778707786649956, 768152126596003, 788077944598835, 779656795945751, 787762857494591, 787376954220879, 751215750635081, 788413930935369, 788632328210854, 787159885094749, 787060916202249, 779292624537727,
  788171734202624, 784425433313946, 784762317345831, 761461113127463, 789499590383600, 788363195002971, 780114843383718, 790313597646962, 781815127761047, 765193655477123, 789293215281829, 787252399233260,
  773529290983287, 790067792703191, 772524941258012, 783844038342856, 780412302584747, 790115587434971, 757184969714829, 793301815938929, 788589909447723, 767123317937226, 788310100057426, 739031603155233,
  790378535321373, 782806572263207, 781797539237663, 781090726134196, 771427464474517, 791420953622252, 789242539391359, 791352954049663, 790401259211133, 782010276517753, 789788934980101, 787529513614031,
  770240077562886, 788371204539192, 787936644162952, 785927956147592, 787421321511322, 799096185146414, 788629530717599, 788312054073350, 757485425234172, 786034453600558, 770120789566743, 788704019265133,
  794226928205229, 777319236667285, 797606122979820, 776478742432674, 793067664504298, 784125318227084, 775514768903337, 785805595882148, 782920007643974, 789531753605774, 760562425007477, 791064705476152,
  758317164379645, 790167351995844, 782499981929315, 790118637341051, 780513957445005, 788651775996292, 788881887147407, 765792021704712, 763802492711704, 787848506460270, 774567594660272, 787731562212181,
  787267232689764, 779298050778158, 787281219817812, 785211507643986, 767435724032370, 770755131853430, 788627410838156, 783024958482431, 757248289190540, 777052902801436, 745450472130446, 793112880476178,
  789456305671810, 777230460886522, 792183565969464, 786615355479052, 781010811007981, 788046399582062, 754740877632614, 790132199241602, 785424166904131, 762749268930930, 783759165878594, 787578730005311,
  785999564295867, 787322346351955, 792898331842922, 794154830681034, 793120550661231, 790598127154776, 780661015362281, 786493164214186, 791381873211932, 787552006973589, 791463682374436, 803876005672130,
  801854952639591, 797173449515975, 794750347424380, 796152081787409, 787888609127952, 795377530343891, 797033178815690, 787607338001463, 818806574292640, 787728594634305, 818754313883254, 790426970491873,
  829635181321088, 790206974767734, 823526282323136, 847084332034125, 786491563120582, 786813732589791, 789175724734027, 805504403074202, 786627861066382, 786212879145955, 786953281396659, 788482651858755,
  811623829719747, 784381232171239, 787454417400971, 787219556532929, 790044913725946, 790359079925569, 789759931876270, 789306442712418, 785710546335005, 788194012597211, 786451556802011, 787972930953018,
  793518886228436, 794439455124702, 791679240339920, 792992818762145, 796233732461052, 784432882885861, 785913462830873, 787430452902363, 789339500128190, 789327449299334, 791277088040748, 780654014587081,
  784704220151694, 784676940493240, 797556201023643, 789083908149874, 771832707858723]

theorem high_d : dists cols highW = highD := by decide +kernel

theorem high_k : highD.map expNat = highK := by decide +kernel

theorem high_s : highD.all (fun x => decide (x ≤ 4 * 10 ^ 23)) = true := by decide +kernel

theorem high_a : dot2 pos highK = 122824332208353563294830751899571910 := by decide +kernel

theorem high_b : dot2 neg highK = 122410791027024158625362158477244610 := by decide +kernel

/-- Similarities: the upper 8 bands at zero, the others perfect (what they miss to 1, in units of `10^-11`). -/
def lowW : List Nat := [0, 0, 0, 0, 0, 0, 0, 0, 0, 0, 0, 0, 0, 0, 0, 0, 0, 0, 0, 0, 0, 0, 0, 0, 100000000000, 100000000000, 100000000000, 100000000000, 100000000000, 100000000000, 100000000000, 100000000000]

def lowD : List Nat := [
  80000000000000000000000, 60659016280411058000000, 71108473472423469000000, 28419372045316223000000, 75763381007326637000000, 55321511315415908000000, 71297253733557238000000, 53485990366348618000000, 44273724143504717430000, 3406866938369315170000, 80000000000000000000000, 56979926655928923000000,
  64564401324180649000000, 51755447028858644000000, 48031539828911041000000, 55081259654320643000000, 69555750190861268460000, 24762010845281866880000, 80000000000000000000000, 53736857628082957000000, 79668219793192053000000, 68955044577654296000000, 68404144741114203000000, 68554453960981478000000,
  49569892726824177000000, 63453400794007289000000, 73248170723090815000000, 67749257051058423000000, 35030166193234540000000, 67714391695014823000000, 61095435659161426000000, 45600979569128263000000, 18648491930848713000000, 80000000000000000000000, 66860559197907942000000, 71033424866290986000000,
  24855983137916132000000, 56510899868014519000000, 65243937645214722000000, 59769092755750798000000, 9378724560667012000000, 74853217851425169000000, 53233051708069143000000, 79206294261747187000000, 70746776702821143000000, 72711939945591236000000, 78465242484568519000000, 73835138001796110000000,
  60114034093297552000000, 75778883303101981000000, 39893633108418027000000, 75722759821810386000000, 45201513611145929000000, 66386928749426010000000, 31821376240935852000000, 76597917672966488000000, 58378670637030329000000, 61130674203852669000000, 70933940716087541000000, 71104247756772206000000,
  59315304749316555000000, 56032877550121973000000, 57198504176006198000000, 68429030990614832000000, 50391777434584132000000, 52313454390403394000000, 10514566178466737000000, 63591161025308090000000, 77241679097649821000000, 56049364842347987000000, 72313835528675722000000, 59635453729316599000000,
  8444474921965070000000, 57814781631625987000000, 78001800473393469000000, 31655032311549520000000, 78334331337248838000000, 46930945685637956000000, 70385173318200448000000, 54319651280800548000000, 47587798840972806208500, 1827704160436241818164, 61576546226363859000000, 15610896026778315000000,
  62188306657942363000000, 61445493995076915000000, 37342677379855273000000, 69123599567046879000000, 62339962138215045000000, 10464257198862750000000, 68153033314887099000000, 33074877802708869000000, 2916169554114539120000, 68479308680745354000000, 58898774608434503000000, 27947161145155470000000,
  12655155552487540000000, 36505422858385904000000, 73122478761660046000000, 7931700210793600450000, 47087177718798562000000, 25356022894927460410000, 69155405899731960000000, 78500594946979470000000, 58765715033724794000000, 77115868240924635000000, 72778987616213010000000, 20220638051886725000000,
  39293450556327432000000, 70509855980199075000000, 58362647045701463000000, 4987108284874333000000, 66425127677551916000000, 54877491494622103000000, 19692027356554014010000, 75785405280131004000000, 69978922219750343000000, 10014046714584944000000, 72208979273786910000000, 65678458033338108000000,
  35900723183979003000000, 66968393950420007000000, 62270850291848771000000, 11359006375073014000000, 65436485092641176000000, 59386530741368534000000, 30814991873453199000000, 10139407499180857416100, 45174434081119986000000, 60243010267388729000000, 70567112048063453000000, 25659211544805446000000,
  71579064145787782000000, 42326157477334099000000, 70509338834745978000000, 43364475973444168000000, 57054448092802523000000, 73161025407834692000000, 28059583929024747000000, 69442078160426896000000, 57844612648892707000000, 73587352542509821000000, 66973391902623304000000, 13318921555567718000000,
  37850123298383090000000, 8997054104232395040000, 70571424150243073000000, 40126650526630590000000, 76152878282011658000000, 72224315898632404000000, 2086327487485502460000, 74480713176977476000000, 69173615344407829000000, 65168316917500887000000, 64129481707569708000000, 16024122991474645000000,
  62303812663472739000000, 43700092876693090000000, 58707021497913198000000, 3953064099138886000000, 67556515316534020000000, 70950687745055907000000, 15807109828884710000000, 61484657641501856000000, 38696288298405970000000, 3571359876038857910000, 65238869571976557000000, 67760179192530197000000,
  7225425575298642000000, 70794760254317317000000, 26909104112835067000000, 14663927905942224000000, 35031716696925542000000, 72317271014798906000000, 6867426824932899580000, 70267234581817335000000, 61215778546877633000000, 26026500278756066360000, 74947873544233463000000, 18340676729256131290000,
  76469773846084591000000, 49873128255634073000000, 8814864647862535890000, 50138235343886722960000, 39497091866070481840000, 71747546529323034000000, 22339260371091154000000, 74480184885321035000000, 70192321018075722000000, 37048863995843012000000, 77017385728656706000000, 75211741179290503000000,
  19039266227286971850000, 75873141093280504000000, 74612092364809292000000, 55600417998936000000000, 74669105265368274000000, 43537700350667735000000, 74158508222545609000000, 63558510607119110000000, 3262251077700542760000, 64615573215989371000000, 26210703869435899000000, 75827856727670803000000,
  67629729584055584000000, 12249028631515932440000, 72720185008815661000000, 29280006900821888000000, 72672986943542302000000, 55776733127876162000000, 10063496583711854000000, 60772319827944836000000, 55909693784131701000000, 76729000801735283000000, 5223117665682927650000, 67444084840893636000000,
  18729988408746655010000, 70452827785961301000000, 15252430261084233000000, 70299537346421066000000, 38320612889246082000000, 74789764106161368000000, 66153129975092726000000, 13137970441836073880000, 20966148389344278240000, 76015708891522383000000, 17334498909986654000000, 77497711852000904000000,
  76006662510595195000000, 40859738382498533000000, 77901990384546617000000, 54407522001831269000000, 6998435016278746000000, 20049966378146066000000, 73585367081019339000000, 56900852042592386000000, 4676082476321837100000, 43686109478338564760000, 17958647276622900500000, 76575226953577932000000,
  71975916922036801000000, 12383501934682642000000, 67626101409305289000000, 45707753843636740000000, 50578736318141752000000, 59431886339222777000000, 4891742275121778340000, 65062701308646795000000, 57287923925327894000000, 23917005749925671730000, 60659044802219849000000, 75096295669351609000000,
  68152307083816091000000, 77109261865852829000000, 55321496974020174000000, 64758094687327820000000, 71297195612464488000000, 66020741013181450000000, 43888999673275427300000, 56979838320992250000000, 72812846603687586000000, 61826967661342925000000, 79534679868986923000000, 48031455097325208000000,
  50762347930005861000000, 55081066869369757000000, 52636564041913420000000, 69961588304918372260000, 78416021890856425000000, 69828906712225531000000, 68974336627559998000000, 68554381746366656000000, 83634958447133406000000, 72468763904207428000000, 85352990981478595000000, 63453924144591858000000,
  66197686194752794000000, 73248592258283173000000, 69068581284344114000000, 56800728040726496960000, 67714119060533347000000, 72802913895651839000000, 70093186040033529000000, 45055978917771946000000, 80000000000000000000000, 66902713814777606000000, 73147846027889148000000, 56537932068244659000000,
  49714716252212489000000, 60661176095711418000000, 76317467622840667000000, 78967931395800155000000, 56763238119296301000000, 64809006037713394000000, 66983934603818304000000, 69969882936077674000000, 58283184037977688000000, 70569301548780271000000, 65687331766407230000000, 76063981096549289000000,
  43722695528715741000000, 60905709312495114000000, 62085825372830017000000, 64800728373579932000000, 32364503494535967000000, 63578444870208206000000, 68365488793504322000000, 79458856956808387000000, 56030037814278308000000, 72324188908911952000000, 74445215818892211000000, 57814763186534780000000,
  65324629618206305000000, 46930988678573546000000, 71654803503017161000000, 70385146725576768000000, 47516708158517685610500]

def lowK : List Nat := [
  923116346386635, 941144099884712, 931360858701545, 971980659799454, 927035534824164, 946180891182162, 931185052750298, 947919220911795, 956692051917236, 996598929847970, 923116346386635, 944613030718593,
  937475737639012, 949561056428035, 953103725874996, 946408240022339, 932808127703749, 975542052832285, 923116346386635, 947681448838361, 923422668932016, 933368639116427, 933882973407478, 933742612735314,
  951638643192309, 938517852468425, 929370158939708, 934494762175317, 965576288057337, 934527344235910, 940733455974323, 955423119485685, 981524315329263, 923116346386635, 935325614798031, 931430758658711,
  975450383216289, 945056183451340, 936838905225081, 941982018945936, 990665118505454, 927879672505407, 948159016653218, 923849319972028, 931697789845251, 929868649463657, 924534193884612, 928824809133508,
  941657146442575, 927021163756502, 960891640773768, 927073192871457, 955804854737431, 935768718413843, 968679595817289, 926262212407840, 943292682557197, 940700306480466, 931523425865592, 931364794376018,
  942409576091226, 945508049391090, 944406582108240, 933859732851984, 950856827269441, 949031342174283, 989540518639126, 938388570937120, 925666112420025, 945492460652086, 930238907976044, 942107912917853,
  991591079506508, 943824744927732, 924962761171198, 968840743190145, 924655233639224, 954153283716287, 932034755839853, 947129307013183, 953526750913756, 998173965073702, 940280968024828, 984510322414712,
  939705917248614, 940404202018593, 963345961910678, 933211328433484, 939563416502201, 989590302665177, 934117511539230, 967466115139928, 997088078338125, 933812781722017, 942802199848862, 972439748046463,
  987424584201108, 964152865417695, 929486980639501, 992099672721628, 954004226052919, 974962741174054, 933181646875540, 924501509902008, 942927657055065, 925782578592871, 929806306026741, 979982428037859,
  961468524271398, 931918554509716, 943307797614745, 995025306692794, 935732973734534, 946601107537194, 980500594172573, 927015117765482, 932413472905110, 990035926899401, 930336454458176, 936431918048890,
  964736064653915, 935224759629784, 939628353708633, 988705263560132, 936658536650542, 942342454424682, 969654950528165, 989911822997871, 955830737834144, 941535702938349, 931865198045220, 974667188343272,
  930922672079259, 958557089019877, 931919036447284, 957562317998717, 944542639421117, 929451152724262, 972330429807888, 932914167924420, 943796590095415, 929054986931614, 935220085432817, 986769382805771,
  962857239944647, 991043298278841, 931861179755932, 960667762369250, 926674527320098, 930322186346407, 997915847380948, 928225376404902, 933164654310681, 936909752343567, 937883552904409, 984103580246672,
  939597381840106, 957240997822140, 942983002437464, 996054738973345, 934674895675746, 931507825746423, 984317166851651, 940367373082111, 962042848451567, 996435009844532, 936843653205297, 934484555547059,
  992800615056113, 931653084748936, 973449720079024, 985443063873183, 965574790928899, 930235712158674, 993156100063463, 932144685323567, 940620252205431, 974309269799390, 927791847568794, 981826489938838,
  926380914797761, 951350116293119, 991223872367441, 951097940062210, 961272749496431, 930765841220569, 977908413196235, 928225866778754, 932214518219550, 963629047432842, 925873756476665, 927547065624588,
  981140835787358, 926933788908102, 928103434919287, 945917031805574, 928050522558802, 957396459228335, 928524503407523, 938419210216575, 996743064281763, 937427766459390, 974129815062071, 926975765467129,
  934606466642910, 987825685350655, 929860982669458, 971144499230830, 929904871344536, 945750267024154, 989986970962827, 941037470960286, 945624527807366, 926140803016512, 994790499095760, 934779987526489,
  981444327813988, 931971701657485, 984863298922487, 932114574959547, 962404332188313, 927938551813818, 935987525570693, 986947955980606, 979252113269660, 926801647418486, 982814879139644, 925429141913053,
  926810031657156, 959963766576045, 925055086393988, 947046085734477, 993025997001539, 980149697552767, 929056831536344, 944687728582063, 995334833376237, 957254383397922, 982201648231566, 926283230202235,
  930553306129170, 987692858098853, 934609857564645, 955321110321327, 950679072755502, 942299714888524, 995120202810756, 937008709863139, 944322137283984, 976366739220692, 941144073041580, 927654152949828,
  934118189924637, 925788694680023, 946180904751716, 937294172395079, 931185106871792, 936111448190378, 957060185570554, 944613114160929, 929774824259644, 940045530996001, 923545990959258, 953103806632989,
  950504533062836, 946408422475623, 948724750522070, 932429635420917, 924579701126480, 932553359877816, 933350632695752, 933742680165179, 919766947975618, 930094798736768, 918188115066478, 938517361294687,
  935945822433979, 929369767177562, 933262673530620, 944782319233281, 934527599020323, 929784059487378, 932306937866278, 955943967626521, 923116346386635, 935286187336121, 929463402394865, 945030636848653,
  951500833508390, 941142067189480, 926522019121439, 924069557590832, 944817739712149, 937246454697750, 935210225738879, 932421901293085, 943382758667828, 931863157727935, 936423608438881, 926756909739144,
  957219361881480, 940911954828544, 939802224453400, 937254212941222, 968153622376979, 938400503707602, 933919074236523, 923616019560676, 945510734388001, 930229276908776, 928258326538290, 943824762336665,
  936763312895332, 954153242694437, 930852167264473, 932034780625103, 953594540190782]

theorem low_d : dists cols lowW = lowD := by decide +kernel

theorem low_k : lowD.map expNat = lowK := by decide +kernel

theorem low_s : lowD.all (fun x => decide (x ≤ 4 * 10 ^ 23)) = true := by decide +kernel

theorem low_a : dot2 pos lowK = 146763073081441882018390091861150440 := by decide +kernel

theorem low_b : dot2 neg lowK = 148932682539510404609658351148431002 := by decide +kernel

/-- Similarities: all bands at 0.15 (what they miss to 1, in units of `10^-11`). -/
def leastW : List Nat := [85000000000, 85000000000, 85000000000, 85000000000, 85000000000, 85000000000, 85000000000, 85000000000, 85000000000, 85000000000, 85000000000, 85000000000, 85000000000, 85000000000, 85000000000, 85000000000, 85000000000, 85000000000, 85000000000, 85000000000, 85000000000, 85000000000, 85000000000, 85000000000, 85000000000, 85000000000, 85000000000, 85000000000, 85000000000, 85000000000, 85000000000, 85000000000]

def leastD : List Nat := [
  231200000000000000000000, 213389256640411058000000, 221079296222423469000000, 151512321895316223000000, 227315445137326637000000, 200378741575415908000000, 216445006313557238000000, 198141836186348618000000, 131518872418504717430000, 171916854701369315170000, 231200000000000000000000, 206440369385928923000000,
  210524887394180649000000, 130217229968858644000000, 177944089278911041000000, 194657136484320643000000, 120133331332861268460000, 159028172357281866880000, 231200000000000000000000, 185452865118082957000000, 230809417423192053000000, 209397962057654296000000, 218428573011114203000000, 219477411680981478000000,
  165374663736824177000000, 211855325784007289000000, 221402387253090815000000, 207417728741058423000000, 170288495253234540000000, 219798642745014823000000, 210757600979161426000000, 139122535179128263000000, 179635835340848713000000, 231200000000000000000000, 219302958917907942000000, 218171658206290986000000,
  154389388557916132000000, 207642301418014519000000, 216229115105214722000000, 206567591595750798000000, 164010601100667012000000, 225218798521425169000000, 176341249318069143000000, 230349653191747187000000, 217084905552821143000000, 221019383085591236000000, 198448377694568519000000, 225317259801796110000000,
  214579255533297552000000, 224526923493101981000000, 181903646878418027000000, 227512517241810386000000, 199325618861145929000000, 217656017889426010000000, 146905744500935852000000, 227996587172966488000000, 204216412927030329000000, 213633119033852669000000, 222351802826087541000000, 221619289136772206000000,
  188891262119316555000000, 208325941560121973000000, 211194998276006198000000, 219490120250614832000000, 197306112814584132000000, 201221378110403394000000, 173685871608466737000000, 216978694425308090000000, 227605763787649821000000, 206006996232347987000000, 221559344848675722000000, 205664129999316599000000,
  170430458261965070000000, 212987117701625987000000, 220800848343393469000000, 171736233791549520000000, 229668271297248838000000, 200798728925637956000000, 220004307638200448000000, 206341884220800548000000, 134858011589672806208500, 167325443386696241818164, 214722190736363859000000, 164292407116778315000000,
  213943985567942363000000, 213488103005076915000000, 193810426309855273000000, 220473156377046879000000, 214652687748215045000000, 161488583918862750000000, 217358942944887099000000, 190776378652708869000000, 157317329134114539120000, 217735792520745354000000, 210366528258434503000000, 185472312205155470000000,
  152160943132487540000000, 190581913138385904000000, 223410335461660046000000, 158261627853793600450000, 200862400478798562000000, 184272476451927460410000, 219847925099731960000000, 229234750366979470000000, 204995973853724794000000, 227029494350924635000000, 223648635476213010000000, 165564723801886725000000,
  194497540516327432000000, 221286233370199075000000, 211283696015701463000000, 154615912314874333000000, 217844508457551916000000, 209690808184622103000000, 183055336783554014010000, 226292383440131004000000, 220732590909750343000000, 165989224234584944000000, 221804110173786910000000, 217234605013338108000000,
  192498194293979003000000, 218187905920420007000000, 215654190661848771000000, 161913571395073014000000, 216939918572641176000000, 213513246661368534000000, 188303944883453199000000, 160779782937880857416100, 197563177181119986000000, 207299353997388729000000, 222190216078063453000000, 178941514344805446000000,
  223073499865787782000000, 198723571727334099000000, 222464495834745978000000, 178955185773444168000000, 207411357522802523000000, 224176775467834692000000, 171367930759024747000000, 217028219600426896000000, 208644284798892707000000, 223447313252509821000000, 218458959562623304000000, 166358177195567718000000,
  194798451838383090000000, 160581719260232395040000, 221107056760243073000000, 196562335366630590000000, 226628370222011658000000, 223332097378632404000000, 156556121445485502460000, 224469992756977476000000, 218973975934407829000000, 217209334747500887000000, 215487711967569708000000, 165179421881474645000000,
  212619081553472739000000, 196771854456693090000000, 211706456497913198000000, 156310718899138886000000, 216668037156534020000000, 221298887395055907000000, 161861977728884710000000, 210118899041501856000000, 192329291058405970000000, 144028915291038857910000, 214588453121976557000000, 219156528962530197000000,
  152226650615298642000000, 219234556044317317000000, 185914557042835067000000, 156016101765942224000000, 188198620736925542000000, 220704121594798906000000, 151705751290932899580000, 215216845591817335000000, 210211249176877633000000, 183599206000756066360000, 224917026174233463000000, 174072918168256131290000,
  224072778456084591000000, 203553624565634073000000, 141328633508862535890000, 202661115411886722960000, 195536014590070481840000, 218721557649323034000000, 161757378511091154000000, 221234620175321035000000, 218109249658075722000000, 190851751535843012000000, 225209836968656706000000, 226032911309290503000000,
  171217188766286971850000, 225735880033280504000000, 225050414524809292000000, 208289252058936000000000, 225719234385368274000000, 182167967020667735000000, 223978499472545609000000, 214554317127119110000000, 156881588955700542760000, 216910947165989371000000, 184162449019435899000000, 225330068877670803000000,
  210912007824055584000000, 153465912585515932440000, 212623700898815661000000, 181817295300821888000000, 217773253543542302000000, 210093326167876162000000, 156918144783711854000000, 213017466887944836000000, 210542519134131701000000, 225227780191735283000000, 155075165528682927650000, 214855731540893636000000,
  180729405075746655010000, 218920643895961301000000, 159262130591084233000000, 218685596746421066000000, 192475768209246082000000, 224479877986161368000000, 215811724535092726000000, 164310998551836073880000, 180098383825344278240000, 226424447741522383000000, 169316495409986654000000, 227852669412000904000000,
  227027280900595195000000, 197670913012498533000000, 228684113454546617000000, 207709632351831269000000, 155131319036278746000000, 176638950878146066000000, 223416587571019339000000, 210158928882592386000000, 139191679932321837100000, 194328543860338564760000, 174318965078622900500000, 221209925493577932000000,
  220986071632036801000000, 157068200274682642000000, 214011725259305289000000, 196884016103636740000000, 204414643278141752000000, 209310930549222777000000, 158023155055121778340000, 213354252378646795000000, 208991542945327894000000, 183319718764925671730000, 213389255292219849000000, 225868028039351609000000,
  220039397533816091000000, 227915503355852829000000, 200378771214020174000000, 209379734887327820000000, 216444955352464488000000, 214498841433181450000000, 131700350375275427300000, 206440281600992250000000, 219387447743687586000000, 211700626351342925000000, 225367414778986923000000, 177943833297325208000000,
  185303920580005861000000, 194657203739369757000000, 196134528681913420000000, 120467870432918372260000, 228482180200856425000000, 212556151302225531000000, 209572843527559998000000, 219477439366366656000000, 193290959627133406000000, 223147375824207428000000, 194919840731478595000000, 211855523764591858000000,
  164097969774752794000000, 221401729368283173000000, 174153836504344114000000, 100629492328726496960000, 219781735870533347000000, 224514713825651839000000, 219752007810033529000000, 139533993897771946000000, 231200000000000000000000, 219348419954777606000000, 224737555707889148000000, 207675578438244659000000,
  171829472502212489000000, 214277984395711418000000, 227114679112840667000000, 229677750845800155000000, 205360629789296301000000, 213364128897713394000000, 216168598823818304000000, 219383812256077674000000, 210945088977977688000000, 221139686218780271000000, 217902329566407230000000, 226347270566549289000000,
  188055095098715741000000, 205338761732495114000000, 209568646702830017000000, 210636353173579932000000, 146410497144535967000000, 216969686810208206000000, 221000061773504322000000, 229870989886808387000000, 205997512174278308000000, 221570427588911952000000, 221331779508892211000000, 212987111486534780000000,
  218796043128206305000000, 200798775718573546000000, 211192639633017161000000, 220004270165576768000000, 135109801974217685610500]

def leastK : List Nat := [
  793580734015648, 807841618291796, 801653109706405, 859407292680989, 796669437149317, 818420724416769, 805376824345326, 820253503257948, 876762728348519, 842049182688728, 793580734015648, 813474768010618,
  810158892158702, 877904702994107, 836989218851335, 823116826409533, 886802190316338, 852972328389444, 793580734015648, 830727990923868, 793890753363784, 811072395369170, 803780889042895, 802938294514468,
  847576088567532, 809081742366314, 801394144613854, 812680099237677, 843421458406998, 802680407214690, 809970379114127, 870121401443814, 835574442694879, 793580734015648, 803078381537453, 803987418782263,
  856938274078287, 812497613983650, 805550716891366, 813371282535962, 848733024328280, 798341523703494, 838331854345570, 794255839856282, 804861629182181, 801701140697689, 820002100046664, 798262921844580,
  806880859424769, 798894067391369, 833681664376698, 796512451296034, 819283075872735, 804402094012086, 863375351455913, 796126976874383, 815285913683157, 807644640119997, 800633649602874, 801220339564318,
  827876523339135, 811942347822107, 809616177728788, 802928090382081, 820939294807491, 817731383686013, 840560900234477, 804947118983212, 796438182723930, 813827382537506, 801268369586730, 814106464307619,
  843301732257678, 808166548191987, 801876359394781, 842201288114515, 794797215826109, 818077070235609, 802515341009221, 813554887152682, 873839978029194, 845924266076926, 806765535987362, 848493879953696,
  807393609450485, 807761770031022, 823814062938205, 802139170894015, 806821610551502, 850876245082175, 804641097218727, 826317349691122, 854432879347622, 804337925691140, 810287198379644, 830711835841380,
  858850043600906, 826478055544890, 799786601148937, 853626420302651, 818024983656177, 831709151790674, 802640850208876, 795141851752538, 814650596307240, 796897277975453, 799596034697139, 847415013508446,
  823248203019526, 801487235061781, 809544369788451, 856744179185343, 804250486093164, 810834910734420, 832722074300905, 797484896197129, 801931095285217, 847055361810089, 801072270873807, 804741150848497,
  824895807721566, 803974355930640, 806013980847005, 850514710163558, 804978332099257, 807741460202043, 828362892302916, 851479560789508, 820728287690074, 812776305730207, 800763031843619, 836154801028372,
  800056043121583, 819776471409127, 800543428871785, 836143369675821, 812685277016456, 799173847550842, 842511530531029, 804907254823331, 811683912603141, 799757027354065, 803756465284587, 846742895872393,
  823000515582221, 851648224665303, 801630855693828, 821550118071234, 797216996821100, 799849177367332, 855083527832696, 798939550313387, 803342624122670, 804761487128260, 806148176172129, 847741587051204,
  808464037435490, 821378005669101, 809202198753598, 855293393257467, 805197220502620, 801477093086555, 850558592467618, 810487874009619, 825035147059602, 865862711024940, 806873438100640, 803195984879143,
  858793612580419, 803133316285295, 830344539043922, 855545414468091, 828450143512312, 801953926039124, 859241074124072, 806366564182578, 810413028800770, 832269305532866, 798582477453725, 840235626981755,
  799256963564690, 815826454810354, 868203943901032, 816554912418329, 822393724857933, 803545428084825, 850647564884219, 801528603446205, 804037596035581, 826255070117217, 798348678115243, 797691848150430,
  842638541970784, 797928822770645, 798475962958312, 811972138128333, 797942104923433, 833461334640655, 799332320251022, 806900981998291, 854805271210068, 805001653791691, 831800667647761, 798252696899732,
  809845323798377, 857730001498587, 808460302869530, 833753657211933, 804307794934137, 810508600778617, 854774023666734, 808142021367026, 810144607773726, 798334353295335, 856350807003274, 806657807061883,
  834661183220567, 803385469164883, 852772791832532, 803574324823515, 824914307112279, 798931652651864, 805887016343580, 848478105381467, 835188038374982, 797379583865595, 844241662486904, 796241561931555,
  796899041869948, 820639870608593, 795579806772770, 812442909602245, 856302721251833, 838082318790074, 799781600811273, 810455430958166, 870061239194239, 823387340969478, 840028915033217, 801548397184374,
  801727846972812, 854645769753786, 807338918708960, 821285883725593, 815124315287614, 811142987295003, 853830011258608, 807869896686196, 811402097686253, 832501946689139, 807841619380921, 797823385034576,
  802487181323738, 796191532505749, 818420700159921, 811087179058600, 805376865388210, 806945746631869, 876603629676893, 813474839421452, 803010533254239, 809206916534775, 798222885989949, 836989433105190,
  830851732535834, 823116771050773, 821901657893757, 886505569927986, 795740477013509, 808514915881371, 810930566238473, 802938272284812, 824242118067223, 799996940397769, 822900618523936, 809081582183854,
  848658874888508, 801394671839060, 840167639263662, 904268009060655, 802693978146305, 798903821681808, 802717841036147, 869763456051838, 793580734015648, 803041873591391, 798725812285168, 812470576933971,
  842122766012999, 807123985960851, 796829397361795, 794789681543024, 814353583288950, 807861917783160, 805599467300311, 803013452594390, 809818533623694, 801604699339796, 804203984782652, 797441125744043,
  828569055881167, 814371391814084, 810933969579069, 810068592199121, 863803041713796, 804954369669692, 801716630765272, 794636111985454, 813835100960262, 801259489386739, 801450731244323, 808166553214816,
  803485577847824, 818077031955383, 809618087326562, 802515371081577, 873619981222798]

theorem least_d : dists cols leastW = leastD := by decide +kernel

theorem least_k : leastD.map expNat = leastK := by decide +kernel

theorem least_s : leastD.all (fun x => decide (x ≤ 4 * 10 ^ 23)) = true := by decide +kernel

theorem least_a : dot2 pos leastK = 126803841882588384295733463406544630 := by decide +kernel

theorem least_b : dot2 neg leastK = 128627923841834942193609996960257970 := by decide +kernel

theorem perfect_a : dot2 pos kern = 154481975162173399269570335723541670 := by decide +kernel

theorem perfect_b : dot2 neg kern = 153431494621489406286175232055667690 := by decide +kernel

theorem perfect_s : sq.all (fun x => decide (x ≤ 4 * 10 ^ 23)) = true := by decide +kernel

end Visqol.Svr
