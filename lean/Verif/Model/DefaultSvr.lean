/-!
# The support vectors of the default model of the fullband mode

`model/libsvm_nu_svr_model.txt`, the file named by the default of `--similarity_to_quality_model` (`visqol/src/command_line_utils.rs`).
-/

namespace Visqol

/-- `model/libsvm_nu_svr_model.txt:8-17`: coefficients in units of `10^-18`, vectors in units of `10^-11`. -/
def defaultVectors0 : List (Int × List Int) := [
  (1000000000000000000, [100000000000, 100000000000, 100000000000, 100000000000, 100000000000, 100000000000, 100000000000, 100000000000, 100000000000, 100000000000, 100000000000, 100000000000, 100000000000, 100000000000, 100000000000, 100000000000, 100000000000, 100000000000, 100000000000, 100000000000, 100000000000, 100000000000, 100000000000, 100000000000, 100000000000, 100000000000, 100000000000, 100000000000, 100000000000, 100000000000, 100000000000, 100000000000]),
  (1000000000000000000, [99927235000, 99959607000, 99976890000, 99975062000, 99951530000, 99908482000, 99956799000, 99956782000, 99931114000, 99870057000, 99883529000, 99904003000, 99785026000, 99529124000, 99407236000, 99079462000, 98902842000, 98316670000, 98190891000, 98168133000, 98295000000, 98917646000, 99179794000, 99320413000, 99133951000, 98453912000, 98633315000, 99041063000, 96313327000, 90816874000, 51714576000, 37213823000]),
  (1000000000000000000, [99157391000, 99644441000, 99894139000, 99930228000, 99782547000, 99554967000, 99768348000, 99833380000, 99754190000, 99497817000, 99782721000, 99836140000, 99789832000, 99725789000, 99536804000, 99464802000, 99245293000, 98926291000, 98844729000, 98754893000, 98521880000, 98507313000, 98474270000, 98310185000, 98100296000, 97185876000, 96628469000, 96720629000, 95572346000, 94854996000, 89450011000, 84844162000]),
  (1000000000000000000, [93479194000, 96185889000, 97666561000, 98230104000, 96239535000, 92345324000, 95304472000, 95654981000, 95370033000, 94696773000, 94079095000, 95435812000, 94636342000, 93686869000, 92432836000, 92634072000, 90573759000, 87509607000, 86795519000, 86688833000, 87194789000, 70937978000, 63878295000, 72046959000, 68399221000, 84335155000, 62256631000, 59196978000, 60929135000, 27040378000, 15586882000, 20144534000]),
  (1000000000000000000, [99954641000, 99974819000, 99981115000, 99974569000, 99964362000, 99958817000, 99984414000, 99984719000, 99975360000, 99960765000, 99968380000, 99979612000, 99974476000, 99947302000, 99921177000, 99909421000, 99886255000, 99759303000, 99711365000, 99732964000, 99816440000, 99895031000, 99875836000, 99929994000, 99899592000, 99777118000, 99820018000, 99838714000, 99911253000, 99696359000, 96571195000, 81536723000]),
  (1000000000000000000, [98360646000, 99174147000, 99251582000, 99246095000, 98478050000, 98434809000, 99243859000, 99311368000, 98754390000, 98424725000, 98484617000, 98619090000, 98052100000, 97172338000, 96876317000, 97167194000, 95914851000, 93906318000, 93045951000, 92932372000, 95318992000, 96789704000, 97248531000, 97980693000, 94005371000, 80879345000, 80225183000, 85336397000, 94107436000, 94040093000, 76277570000, 49623784000]),
  (1000000000000000000, [99407482000, 99655166000, 99777686000, 99682011000, 99252187000, 99305066000, 99658339000, 99657999000, 99399807000, 99138706000, 99269550000, 99362072000, 98896255000, 98367348000, 97483066000, 97981908000, 96732434000, 94465282000, 94557558000, 94743053000, 95356824000, 97719221000, 98335738000, 98047621000, 97083457000, 90759383000, 87995588000, 89739770000, 96009211000, 97097511000, 97760156000, 97393319000]),
  (1000000000000000000, [94663621000, 97270457000, 98637312000, 98805178000, 96664221000, 94341665000, 96917354000, 97629933000, 97146778000, 96759446000, 97330507000, 98225911000, 98210460000, 97790478000, 97615024000, 98043265000, 97040724000, 95002148000, 95427875000, 95628946000, 96510074000, 97603613000, 98230633000, 98304838000, 96942670000, 94788633000, 94633566000, 96659603000, 88780846000, 78837320000, 39131124000, 30567323000]),
  (1000000000000000000, [99944267000, 99971042000, 99993667000, 99988053000, 99991833000, 99998345000, 99999114000, 99999069000, 99998887000, 99998575000, 99997668000, 99996900000, 99995374000, 99994539000, 99994162000, 99993549000, 99988998000, 99929331000, 46034058000, 19880530000, 9948791400, 6506093200, 6375420800, 8520493900, 9654865000, 8290720800, 8250198000, 7404086900, 7924297300, 8580127200, 11503514000, 20106890000]),
  (1000000000000000000, [99958868000, 99981031000, 99998858000, 99998207000, 99996892000, 99999772000, 99999877000, 99999852000, 99999790000, 99999705000, 99999622000, 99999470000, 99999009000, 99998928000, 99998934000, 99998721000, 99997784000, 99995472000, 99995717000, 99996522000, 99996847000, 99997752000, 99851983000, 82735717000, 46268984000, 10657610000, 10688307000, 8211757300, 8089565800, 8386901800, 11242418000, 20261734000])]

/-- `model/libsvm_nu_svr_model.txt:18-27`: coefficients in units of `10^-18`, vectors in units of `10^-11`. -/
def defaultVectors1 : List (Int × List Int) := [
  (1000000000000000000, [100000000000, 100000000000, 100000000000, 100000000000, 100000000000, 100000000000, 100000000000, 100000000000, 100000000000, 100000000000, 100000000000, 100000000000, 100000000000, 100000000000, 100000000000, 100000000000, 100000000000, 100000000000, 100000000000, 100000000000, 100000000000, 100000000000, 100000000000, 100000000000, 100000000000, 100000000000, 100000000000, 100000000000, 100000000000, 100000000000, 100000000000, 100000000000]),
  (1000000000000000000, [99872885000, 98682890000, 87951584000, 90707094000, 96043429000, 97999173000, 98550551000, 99488021000, 99743357000, 99819767000, 99874382000, 99940152000, 99950109000, 99895980000, 99960451000, 99916396000, 99398966000, 98988532000, 97590217000, 99250618000, 99822448000, 99895852000, 99825417000, 99558464000, 99765428000, 99564402000, 99243341000, 99528071000, 96239478000, 57737641000, 50196400000, 44495313000]),
  (-1000000000000000000, [99196479000, 96709961000, 80980288000, 90318978000, 97242362000, 98653301000, 99276273000, 99554837000, 99754124000, 99864171000, 99894592000, 99939672000, 99956811000, 99873328000, 99954997000, 99888282000, 99441995000, 99101676000, 97656774000, 99132194000, 99756153000, 99910152000, 99614052000, 98268499000, 97983298000, 95983278000, 95081837000, 92538508000, 90840406000, 83226552000, 79284286000, 78705355000]),
  (-1000000000000000000, [94577835000, 86894346000, 56961259000, 57148462000, 59119983000, 53624860000, 55795287000, 64588456000, 83696769000, 93785123000, 95224619000, 97354028000, 98420658000, 95437777000, 98104671000, 96945371000, 90243549000, 90952488000, 80023620000, 80569277000, 92384937000, 72771720000, 58832460000, 66008839000, 73311414000, 79215454000, 86385702000, 82834008000, 79412149000, 45399866000, 25605443000, 29419432000]),
  (-1000000000000000000, [98836839000, 89593881000, 60007362000, 71929459000, 83837403000, 88431169000, 93122556000, 94998293000, 97127248000, 98404234000, 98866478000, 99474356000, 99565318000, 99271998000, 99720001000, 99488232000, 96991327000, 93725107000, 86168758000, 95371771000, 98897813000, 99655025000, 98507084000, 94942013000, 95319079000, 88628322000, 79214131000, 75985021000, 81638533000, 52076252000, 61296882000, 51381240000]),
  (-1000000000000000000, [99474169000, 94915509000, 75733900000, 84690949000, 92760064000, 94633466000, 96687661000, 97948382000, 98661820000, 99398900000, 99485994000, 99770709000, 99821702000, 99621817000, 99890271000, 99675162000, 97733052000, 94110302000, 88569425000, 96204625000, 99222697000, 99735116000, 98948175000, 96846509000, 98757829000, 95697551000, 83884367000, 82286169000, 70453875000, 50955928000, 74264267000, 90232917000]),
  (253488799749289010, [96206609000, 84393847000, 58550521000, 71398701000, 86884702000, 93135270000, 95918288000, 97760518000, 98674064000, 98984897000, 98855987000, 99603248000, 99851765000, 99906867000, 99895608000, 99769147000, 99283665000, 99045491000, 59617877000, -43639458000, -21545875000, 1431781400, 4356870000, 4981949400, 5087520800, 5522045100, 5563293800, 6790305700, 7844048400, 12518532000, 23037185000, 26544290000]),
  (1000000000000000000, [97336475000, 89070352000, 66464819000, 78719771000, 91582385000, 96400279000, 98039520000, 99090446000, 99401423000, 99484300000, 99690529000, 99906489000, 99956544000, 99971600000, 99966978000, 99934017000, 99817300000, 99683084000, 99588874000, 99648184000, 99848808000, 99891833000, 99699148000, -43963366000, -27559455000, 2525165900, 6046106500, 6901970100, 8012094100, 12604521000, 22326912000, 25906123000]),
  (1000000000000000000, [100000000000, 100000000000, 100000000000, 100000000000, 100000000000, 100000000000, 100000000000, 100000000000, 100000000000, 100000000000, 100000000000, 100000000000, 100000000000, 100000000000, 100000000000, 100000000000, 100000000000, 100000000000, 100000000000, 100000000000, 100000000000, 100000000000, 100000000000, 100000000000, 100000000000, 100000000000, 100000000000, 100000000000, 100000000000, 100000000000, 100000000000, 100000000000]),
  (-1000000000000000000, [88468039000, 92543673000, 98027351000, 99663510000, 99606029000, 97977194000, 98440892000, 98611151000, 97732588000, 98297490000, 95803814000, 97165036000, 96474253000, 95986968000, 95901763000, 95455360000, 96792842000, 96237261000, 94011607000, 86532348000, 85101011000, 85613772000, 85218154000, 82557423000, 79140427000, 80559137000, 77999333000, 78965343000, 80553034000, 78612225000, 82359389000, 87854860000])]

/-- `model/libsvm_nu_svr_model.txt:28-37`: coefficients in units of `10^-18`, vectors in units of `10^-11`. -/
def defaultVectors2 : List (Int × List Int) := [
  (1000000000000000000, [99963006000, 99985945000, 99993440000, 99998878000, 99998980000, 99995080000, 99995515000, 99996019000, 99993482000, 99994417000, 99982919000, 99988400000, 99986292000, 99973290000, 99966216000, 99973571000, 99981047000, 99980868000, 99974541000, 99922413000, 99924181000, 99924182000, 99942055000, 99925834000, 99911496000, 99925464000, 99936314000, 99933790000, 99936267000, 99762461000, 99146302000, 99784554000]),
  (-1000000000000000000, [99181428000, 99747687000, 99906186000, 99853143000, 99961595000, 99910618000, 99912564000, 99956245000, 99964597000, 99834039000, 99756671000, 99530726000, 99796646000, 99786535000, 99975623000, 99974337000, 99945289000, 99948872000, 96266858000, 86512946000, 83259961000, 86344925000, 89249265000, 87016813000, 85558320000, 88765677000, 91928281000, 92113346000, 91774799000, 91395169000, 95940443000, 99456940000]),
  (-1000000000000000000, [99181330000, 99747616000, 99906194000, 99852107000, 99961429000, 99910860000, 99912137000, 99955324000, 99963459000, 99833183000, 99738584000, 99498249000, 99801092000, 99785774000, 99974338000, 99971341000, 99937065000, 99949685000, 99875191000, 99591334000, 99507371000, 99528289000, 99675701000, 87124661000, 85611547000, 90014931000, 91989415000, 92118001000, 91768430000, 91350444000, 95909785000, 99456284000]),
  (1000000000000000000, [99975669000, 99828063000, 98603971000, 97273744000, 97836617000, 97988656000, 98528248000, 99226233000, 99491213000, 99523205000, 99920544000, 99988027000, 99974325000, 99797053000, 99708579000, 99954849000, 99973496000, 99870954000, 99914491000, 99942188000, 99985099000, 99947584000, 99923974000, 99914640000, 99539435000, 99160430000, 99463517000, 99249333000, 98463395000, 73528198000, 78062490000, 88619336000]),
  (1000000000000000000, [98868364000, 97485922000, 91678484000, 88098311000, 86545301000, 85227750000, 90409575000, 92862584000, 93174512000, 95399901000, 99233804000, 99807070000, 99801719000, 95626960000, 93459108000, 96081932000, 99391289000, 98275245000, 98567234000, 99304092000, 99389350000, 80984700000, 40858931000, 28887856000, 55087034000, 68791883000, 64342266000, 65356773000, 84665267000, 75802445000, 70310920000, 75531011000]),
  (1000000000000000000, [99748157000, 99012055000, 96326698000, 95259476000, 95038539000, 94214592000, 96761425000, 98526994000, 98080885000, 99361024000, 99737996000, 99955286000, 99905239000, 99084269000, 98658806000, 98885073000, 99919626000, 99772583000, 99828130000, 99920421000, 99982605000, 99918799000, 99824840000, 99723455000, 97779657000, 95625288000, 91728507000, 88571660000, 86522417000, 69754132000, 85338989000, 93481364000]),
  (1000000000000000000, [99739959000, 98966757000, 96676228000, 95865551000, 96470298000, 97142776000, 98442150000, 99065457000, 99156487000, 99423968000, 99910058000, 99980531000, 99943486000, 99088547000, 98669158000, 98948817000, 99830749000, 99871174000, 99884286000, 99871871000, 99967129000, 99881158000, 99514589000, 99561705000, 98938597000, 96489494000, 95133356000, 93155374000, 89709674000, 94278264000, 97624951000, 99476110000]),
  (-1000000000000000000, [99052529000, 97026017000, 85848532000, 84697574000, 86117992000, 86275640000, 94818881000, 97219143000, 96731327000, 98263387000, 99636148000, 99823256000, 99865177000, 99226199000, 99220121000, 98688558000, 99742004000, 99140724000, 99325785000, 99732612000, 99862799000, 99669931000, 99785150000, 99550842000, 98432556000, 98345853000, 98477889000, 97635091000, 97007910000, 73356586000, 77018380000, 86925204000]),
  (-1000000000000000000, [98608193000, 96976549000, 92749599000, 87379138000, 81478730000, 75567346000, 85419254000, 90257227000, 92032030000, 93902797000, 99079327000, 99905845000, 99743459000, 98764147000, 99500763000, 99846822000, 99887744000, 99755677000, 99811732000, 99854725000, 99808359000, 99782001000, 98968554000, 64716036000, 50715478000, 53524565000, 55205251000, 60092493000, 65470657000, 71369020000, 73437529000, 73085011000]),
  (1000000000000000000, [99966910000, 99976394000, 99979279000, 99986467000, 99985944000, 99986410000, 99986672000, 99979232000, 99942109000, 99959364000, 99938917000, 99908802000, 99838657000, 99666468000, 99587580000, 99538568000, 99523397000, 99508006000, 99604119000, 99125939000, 98969121000, 99436657000, 99351579000, 99202536000, 99033497000, 98773096000, 98773482000, 99292340000, 98076121000, 91463872000, 70215977000, 74941633000])]

/-- `model/libsvm_nu_svr_model.txt:38-47`: coefficients in units of `10^-18`, vectors in units of `10^-11`. -/
def defaultVectors3 : List (Int × List Int) := [
  (1000000000000000000, [99527508000, 99565000000, 99695385000, 99866998000, 99798123000, 99799936000, 99819568000, 99657383000, 99433078000, 99382069000, 99236185000, 99250645000, 99287411000, 98827629000, 98863791000, 98329080000, 97385382000, 97644174000, 98340114000, 96912985000, 97989701000, 98587731000, 98184664000, 97406261000, 94092440000, 87647816000, 83827031000, 92314521000, 93569931000, 89741881000, 76691601000, 79190474000]),
  (-1000000000000000000, [99166931000, 99651007000, 99978392000, 99992946000, 99990238000, 99991472000, 99991867000, 99988994000, 99978645000, 99975318000, 99980641000, 99967929000, 99962461000, 99984982000, 99979391000, 99976197000, 99978410000, 99888674000, 60928564000, 33473646000, 25347398000, 17176512000, 18891029000, 22874630000, 28690737000, 30689275000, 28726987000, 31404366000, 38851104000, 47183610000, 53717811000, 67009809000]),
  (387919374384747550, [99168729000, 99651812000, 99978642000, 99993040000, 99991494000, 99991898000, 99992126000, 99989762000, 99981773000, 99976829000, 99981087000, 99968170000, 99962664000, 99986065000, 99981010000, 99978612000, 99982217000, 99968865000, 99982180000, 99981957000, 99975727000, 99970886000, 99822863000, 83136365000, 61516004000, 36358689000, 29066109000, 32055105000, 39508527000, 47752625000, 54210980000, 67857561000]),
  (1000000000000000000, [100000000000, 100000000000, 100000000000, 100000000000, 100000000000, 100000000000, 100000000000, 100000000000, 100000000000, 100000000000, 100000000000, 100000000000, 100000000000, 100000000000, 100000000000, 100000000000, 100000000000, 100000000000, 100000000000, 100000000000, 100000000000, 100000000000, 100000000000, 100000000000, 100000000000, 100000000000, 100000000000, 100000000000, 100000000000, 100000000000, 100000000000, 100000000000]),
  (1000000000000000000, [99947700000, 99958392000, 99886569000, 99936804000, 99975035000, 99983447000, 99963525000, 99981544000, 99986345000, 99982879000, 99969672000, 99793257000, 99938310000, 99796939000, 99687231000, 99395504000, 99332154000, 99517707000, 99653134000, 99666918000, 99383545000, 99268436000, 99609423000, 99622161000, 99382285000, 99285558000, 99491094000, 99388561000, 96043391000, 86691405000, 72178445000, 73466846000]),
  (-1000000000000000000, [98969958000, 99236310000, 97083041000, 96510444000, 97345651000, 98511426000, 98581091000, 99484365000, 99754735000, 99777156000, 99639787000, 98564924000, 99616344000, 99465663000, 99286555000, 97990268000, 98470671000, 98831354000, 98728844000, 98343028000, 98455806000, 98485090000, 98556078000, 98076009000, 97956383000, 97720520000, 97632952000, 96869229000, 95016569000, 93354051000, 87957782000, 86217458000]),
  (1000000000000000000, [96326189000, 96574116000, 93393486000, 96028329000, 98588596000, 98989071000, 98349851000, 98996984000, 99070559000, 98861133000, 98511962000, 95940067000, 97802424000, 95709701000, 94806934000, 89241278000, 89261635000, 91249251000, 92688146000, 90834528000, 85098999000, 66931469000, 73077799000, 65436200000, 59476051000, 67627491000, 63739189000, 37003812000, 52284444000, 41823102000, 34826008000, 42129062000]),
  (1000000000000000000, [99309694000, 99383252000, 98442855000, 99060734000, 99714349000, 99774803000, 99562637000, 99779927000, 99839181000, 99841496000, 99829357000, 99366714000, 99616303000, 99263362000, 99013210000, 97828992000, 97569078000, 98091441000, 98526284000, 98995106000, 98658070000, 98208617000, 98703611000, 98494701000, 93801719000, 87152371000, 82878590000, 78603432000, 82712044000, 80164248000, 84170431000, 81755166000]),
  (1000000000000000000, [99518618000, 99616334000, 99065674000, 99472401000, 99811024000, 99866971000, 99747992000, 99865340000, 99906026000, 99902788000, 99829117000, 98854984000, 99793929000, 99567248000, 99490355000, 98437147000, 98618775000, 98940525000, 99091752000, 99283011000, 98694635000, 98903971000, 99169502000, 99213959000, 98766331000, 92745625000, 81487235000, 77396517000, 87923820000, 90542653000, 95543733000, 95839946000]),
  (-1000000000000000000, [96463246000, 98249489000, 95457610000, 97022346000, 98776460000, 99099623000, 97892572000, 98756642000, 99487116000, 99636445000, 99440348000, 98190458000, 99384065000, 98681542000, 98523620000, 96143156000, 96245255000, 97579203000, 97162918000, 98365101000, 97321691000, 97635168000, 98811048000, 98739978000, 97859985000, 97799501000, 97666673000, 96953030000, 86494145000, 79986139000, 61934845000, 62057954000])]

/-- `model/libsvm_nu_svr_model.txt:48-57`: coefficients in units of `10^-18`, vectors in units of `10^-11`. -/
def defaultVectors4 : List (Int × List Int) := [
  (1000000000000000000, [97948372000, 99292706000, 99233642000, 99166922000, 99251881000, 99541370000, 99529771000, 99777978000, 99886619000, 99966891000, 99795103000, 99217780000, 99642570000, 99723099000, 99342816000, 98466745000, 98150600000, 98319789000, 97503448000, 96551789000, 96618917000, 97100819000, 96761373000, 47025639000, 28394595000, 22416758000, 18795330000, 21437311000, 24069068000, 27139727000, 33570610000, 44075004000]),
  (1000000000000000000, [99718179000, 99924895000, 99870348000, 99907130000, 99919651000, 99943919000, 99966178000, 99924413000, 99851083000, 99894790000, 99887491000, 99835260000, 99650612000, 99731571000, 99813423000, 99848499000, 99611430000, 99743171000, 99858869000, 99704330000, 99313781000, 98528676000, 97807150000, 98206599000, 97739769000, 97480525000, 96964892000, 96846881000, 96413336000, 95813276000, 95903524000, 96599980000]),
  (-1000000000000000000, [94184640000, 97015987000, 95465906000, 97399462000, 98263043000, 97862588000, 98271262000, 97144466000, 93083750000, 92399267000, 92382877000, 94077586000, 89997129000, 90474187000, 94653464000, 94844514000, 88258841000, 91939390000, 97082089000, 93879555000, 78460293000, 73713074000, 84219629000, 80856467000, 78536741000, 82282385000, 80345115000, 79149025000, 78259601000, 78258059000, 79454532000, 80374929000]),
  (1000000000000000000, [99975837000, 99989832000, 99977364000, 99985855000, 99990845000, 99994759000, 99995528000, 99991994000, 99982319000, 99988298000, 99986244000, 99978833000, 99952883000, 99965552000, 99982682000, 99988052000, 99963446000, 99978286000, 99986377000, 99962661000, 99897412000, 99864061000, 99790941000, 99794260000, 99668183000, 99660174000, 99634708000, 99723930000, 99629257000, 99223335000, 99240829000, 99238772000]),
  (1000000000000000000, [99103044000, 99489790000, 98905456000, 99651939000, 99710046000, 99818081000, 99889813000, 99834279000, 99473695000, 99652099000, 99606063000, 99310209000, 98525781000, 98831879000, 98964157000, 98930454000, 97347396000, 98129368000, 98424173000, 96897433000, 94225459000, 95553567000, 96426218000, 96178296000, 94440397000, 93871188000, 93507698000, 93953029000, 94252804000, 93450895000, 93726147000, 94506152000]),
  (1000000000000000000, [99200401000, 99690818000, 99329060000, 99620608000, 99753521000, 99881098000, 99918155000, 99864225000, 99642423000, 99687479000, 99543074000, 99260141000, 98489714000, 98576310000, 98756061000, 99277951000, 97772795000, 98876168000, 99448781000, 98879719000, 98052652000, 98254052000, 97427030000, 97154662000, 96854643000, 96743772000, 95892637000, 95050031000, 94441933000, 93748294000, 94211960000, 95497714000]),
  (-1000000000000000000, [99678135000, 99890580000, 99997901000, 99999619000, 99999888000, 99999947000, 99999981000, 99999962000, 99999909000, 99999888000, 99999893000, 99999898000, 99999848000, 99999867000, 99999921000, 99999863000, 99999211000, 99998055000, 97066013000, 83428826000, 56836629000, 50003144000, 55140148000, 65397907000, 77009143000, 87657468000, 93945725000, 96781258000, 98113432000, 98534269000, 98850675000, 98468710000]),
  (-1000000000000000000, [99662744000, 99882101000, 99997848000, 99999604000, 99999890000, 99999946000, 99999980000, 99999963000, 99999906000, 99999890000, 99999902000, 99999908000, 99999868000, 99999874000, 99999933000, 99999889000, 99999481000, 99998957000, 99995605000, 99979444000, 99917155000, 99849014000, 99571321000, 97182515000, 92057997000, 90709741000, 94152899000, 96907239000, 98178100000, 98391876000, 98934912000, 98793358000]),
  (1000000000000000000, [99788897000, 99763399000, 99684151000, 99781676000, 99878167000, 99968443000, 99995836000, 99997063000, 99996437000, 99991136000, 99991733000, 99993760000, 99989069000, 99970497000, 99817662000, 99953540000, 99872521000, 99879333000, 99867635000, 99917937000, 99953285000, 99893492000, 99783189000, 99582894000, 99223805000, 99156689000, 98136662000, 98757918000, 97512806000, 75293687000, 48490017000, 59354296000]),
  (1000000000000000000, [95828457000, 96942568000, 96032854000, 97303949000, 98953218000, 99756787000, 99975877000, 99985826000, 99985965000, 99962152000, 99959159000, 99967981000, 99969704000, 99833612000, 99700044000, 99758802000, 99674802000, 99659564000, 99583634000, 99681759000, 99766990000, 99872452000, 99841407000, 99710428000, 99618701000, 99557418000, 99194533000, 99304815000, 96188042000, 92198778000, 94800169000, 97214820000])]

/-- `model/libsvm_nu_svr_model.txt:58-67`: coefficients in units of `10^-18`, vectors in units of `10^-11`. -/
def defaultVectors5 : List (Int × List Int) := [
  (637016913671274890, [93743693000, 94844042000, 94963356000, 96772776000, 97581934000, 98333389000, 99662637000, 99615721000, 99699375000, 99323489000, 99471676000, 99548946000, 99419662000, 98781297000, 96696873000, 97882819000, 94804593000, 95393849000, 95046362000, 97544950000, 97401394000, 87039270000, 86298850000, 81619974000, 78682057000, 77995836000, 67016414000, 81904635000, 83033827000, 60930933000, 44335962000, 54215130000]),
  (1000000000000000000, [99952065000, 99934627000, 99929533000, 99948700000, 99963712000, 99988349000, 99998262000, 99998745000, 99998861000, 99997922000, 99997901000, 99998227000, 99997064000, 99994041000, 99985625000, 99993638000, 99988201000, 99981060000, 99978236000, 99986642000, 99990347000, 99981949000, 99974081000, 99948404000, 99922109000, 99926261000, 99862052000, 99823898000, 99832291000, 96719745000, 94686290000, 86770528000]),
  (1000000000000000000, [97979627000, 97488389000, 97322251000, 98688867000, 99044692000, 99439360000, 99915452000, 99953809000, 99962978000, 99832167000, 99798464000, 99928476000, 99890579000, 99756871000, 99364764000, 99639477000, 99420850000, 99470881000, 99282053000, 99455857000, 99631564000, 99111656000, 98433606000, 97726811000, 86171027000, 73355649000, 75261978000, 87743560000, 89382467000, 68395712000, 50153403000, 61789868000]),
  (1000000000000000000, [98391920000, 98202800000, 98319199000, 98878195000, 99235257000, 99685395000, 99959251000, 99973043000, 99976402000, 99945522000, 99946481000, 99949840000, 99920226000, 99871554000, 99664584000, 99830179000, 99685484000, 99696367000, 99684733000, 99784781000, 99826499000, 99518211000, 99066285000, 98615575000, 97850336000, 94356056000, 84812805000, 92816168000, 96752482000, 89806518000, 87484399000, 83709035000]),
  (-1000000000000000000, [97930693000, 98619453000, 99348951000, 99662679000, 99746212000, 99940678000, 99996024000, 99999373000, 99999824000, 99999382000, 99999425000, 99999872000, 99999862000, 99999580000, 99998679000, 99999560000, 99999664000, 99896551000, 79103672000, 76055505000, 69815647000, 42533688000, 19891731000, 20788424000, 24036869000, 29148520000, 35065969000, 35791727000, 43779274000, 51165301000, 46909155000, 56799974000]),
  (1000000000000000000, [99930244000, 99909923000, 99883287000, 99975663000, 99997717000, 99999578000, 99998971000, 99998381000, 99997778000, 99994504000, 99996571000, 99994495000, 99990883000, 99976277000, 99957679000, 99921266000, 99914547000, 99908067000, 99763254000, 99916126000, 99930637000, 99886703000, 99782904000, 99481888000, 99467127000, 99192066000, 99689997000, 99681562000, 97759004000, 95596647000, 94356577000, 96909647000]),
  (-1000000000000000000, [95832478000, 96789930000, 97129895000, 99488288000, 99936933000, 99983453000, 99939649000, 99935278000, 99863352000, 99698650000, 99849704000, 99773342000, 99602418000, 99020781000, 99054696000, 98026975000, 98075716000, 97768403000, 93966036000, 98967568000, 99213410000, 97147862000, 91033500000, 87244191000, 86000394000, 85241662000, 86813843000, 81478926000, 78744485000, 80026615000, 87427787000, 94615757000]),
  (1000000000000000000, [98897776000, 98811476000, 98830370000, 99831183000, 99983025000, 99994882000, 99988504000, 99988035000, 99976742000, 99939741000, 99957899000, 99950312000, 99917896000, 99849274000, 99809914000, 99647925000, 99634611000, 99493380000, 98903859000, 99754866000, 99794120000, 99472515000, 99098272000, 98112402000, 91436187000, 79543701000, 83978057000, 84192544000, 82284602000, 87113328000, 92393365000, 96930936000]),
  (1000000000000000000, [99534425000, 99407437000, 99367427000, 99890026000, 99987666000, 99997912000, 99995408000, 99993606000, 99989808000, 99964213000, 99983032000, 99978044000, 99969304000, 99933437000, 99898037000, 99797813000, 99838386000, 99762861000, 99222401000, 99874290000, 99874451000, 99625366000, 99165787000, 97907799000, 96903414000, 96216187000, 94877933000, 92231637000, 88313757000, 90804674000, 94948147000, 98542818000]),
  (-1000000000000000000, [99420404000, 98904289000, 97595317000, 99083555000, 99867916000, 99979690000, 99956207000, 99959407000, 99942175000, 99875170000, 99952846000, 99940476000, 99919203000, 99797745000, 99823373000, 99592390000, 99692417000, 99318672000, 98466769000, 99749196000, 99830662000, 99576665000, 98912243000, 98556455000, 98539073000, 97776591000, 98112763000, 97269214000, 91555490000, 84887704000, 89479036000, 95587121000])]

/-- `model/libsvm_nu_svr_model.txt:68-77`: coefficients in units of `10^-18`, vectors in units of `10^-11`. -/
def defaultVectors6 : List (Int × List Int) := [
  (-1000000000000000000, [98749842000, 99122434000, 99544673000, 99934877000, 99996357000, 99999852000, 99999786000, 99999293000, 99999274000, 99998886000, 99998617000, 99998857000, 99998831000, 99997846000, 99992651000, 99978123000, 99993315000, 99957459000, 55388123000, 85561986000, 75168354000, 72258365000, 81906669000, 80819768000, 77337126000, 75973127000, 77640141000, 83179998000, 81253588000, 80930709000, 88860243000, 96357171000]),
  (-1000000000000000000, [98736407000, 99118252000, 99542404000, 99935799000, 99996460000, 99999861000, 99999791000, 99999339000, 99999399000, 99998996000, 99998816000, 99999386000, 99999005000, 99998431000, 99998696000, 99995895000, 99996543000, 99998191000, 99996775000, 99997460000, 99994323000, 99975708000, 99838887000, 85757006000, 78454787000, 77639456000, 78296820000, 83718066000, 81529886000, 81140597000, 89161674000, 96563617000]),
  (1000000000000000000, [99969400000, 99987304000, 99983917000, 99975764000, 99951660000, 99962334000, 99971011000, 99973137000, 99955082000, 99942981000, 99914831000, 99870790000, 99680108000, 99711766000, 99640306000, 99292234000, 99228032000, 99294971000, 99011645000, 99079727000, 99160640000, 98870780000, 98989198000, 98884069000, 99197683000, 98686986000, 98494496000, 98561773000, 93893637000, 72376736000, 41086067000, 49529045000]),
  (1000000000000000000, [99776238000, 99912126000, 99907344000, 99835009000, 99694509000, 99751589000, 99799726000, 99847248000, 99825126000, 99761599000, 99823132000, 99800024000, 99657851000, 99775352000, 99732963000, 99553026000, 99426616000, 99482123000, 99224937000, 99291082000, 99249885000, 98645207000, 98184801000, 98244630000, 98272409000, 98300216000, 98206611000, 98486947000, 93628392000, 84348481000, 81607225000, 84925554000]),
  (1000000000000000000, [99396692000, 99714463000, 99692015000, 99427268000, 98667218000, 98989396000, 99179724000, 99305506000, 98926929000, 98670674000, 98726110000, 98045977000, 96297243000, 97746706000, 97869092000, 96528044000, 96406379000, 96721741000, 95487002000, 94661218000, 95390575000, 95519447000, 96280135000, 95966353000, 92668017000, 84509958000, 82175575000, 87955697000, 92480391000, 72461490000, 53724515000, 57369984000]),
  (1000000000000000000, [98066173000, 99129874000, 99068527000, 98699754000, 97781571000, 97888020000, 98500080000, 98590489000, 98081183000, 98208140000, 98568992000, 98030044000, 97474382000, 98610315000, 98334155000, 97971635000, 98101094000, 98321357000, 97551575000, 97498475000, 97310928000, 97620114000, 96975669000, 97578607000, 98022883000, 97753643000, 96924250000, 96570015000, 84745211000, 64394970000, 34502349000, 42602422000]),
  (1000000000000000000, [99985878000, 99995110000, 99999789000, 99999860000, 99999883000, 99999883000, 99999885000, 99999823000, 99999858000, 99999850000, 99999803000, 99999684000, 99999593000, 99999677000, 99999613000, 99999476000, 99998911000, 99998855000, 99998881000, 99998590000, 99998588000, 99997969000, 99676720000, 74907481000, 65267603000, 33109291000, 19252485000, 19169917000, 22935885000, 28236421000, 27278044000, 41510913000]),
  (1000000000000000000, [99897052000, 99931568000, 99922134000, 99915597000, 99925458000, 99931796000, 99953828000, 99959748000, 99954882000, 99943203000, 99947570000, 99894691000, 99879326000, 99888047000, 99872234000, 99826881000, 99878694000, 99739980000, 99740256000, 99704962000, 99473887000, 99426561000, 99379798000, 99075203000, 99265360000, 99098128000, 99475488000, 99435110000, 96575345000, 90867586000, 58902238000, 55488649000]),
  (1000000000000000000, [99087890000, 99647567000, 99671144000, 99531640000, 99435202000, 99583290000, 99762494000, 99783334000, 99772700000, 99732217000, 99827694000, 99729645000, 99721568000, 99740839000, 99820645000, 99812203000, 99856058000, 99814102000, 99833211000, 99837740000, 99607307000, 99694969000, 99658080000, 99638264000, 99636745000, 99612284000, 99789254000, 99767506000, 99196515000, 95746227000, 94827983000, 97352880000]),
  (1000000000000000000, [97498931000, 98999186000, 99031495000, 98721303000, 98826404000, 99006124000, 99400453000, 99487091000, 99363151000, 99344561000, 99573462000, 99186280000, 99159288000, 99240299000, 99215922000, 99134482000, 99305837000, 98592297000, 98771254000, 98833210000, 97440749000, 98021448000, 96994784000, 96018385000, 92763461000, 81190727000, 79320895000, 83263011000, 94805016000, 87362545000, 74402523000, 73580353000])]

/-- `model/libsvm_nu_svr_model.txt:78-87`: coefficients in units of `10^-18`, vectors in units of `10^-11`. -/
def defaultVectors7 : List (Int × List Int) := [
  (1000000000000000000, [99116901000, 99543702000, 99546719000, 99348555000, 99316667000, 99471418000, 99676705000, 99678059000, 99539241000, 99642229000, 99737686000, 99500653000, 99586815000, 99550264000, 99402651000, 99374467000, 99645509000, 99212193000, 99127610000, 99296055000, 97958168000, 98427898000, 98210735000, 97567503000, 97582733000, 92639059000, 90198071000, 92679174000, 96829791000, 95967658000, 97722623000, 96574864000]),
  (1000000000000000000, [94652172000, 97110160000, 96901683000, 95887353000, 95361425000, 96266364000, 98053157000, 98148767000, 98217254000, 98142875000, 98697284000, 98089036000, 98142780000, 98793706000, 98830532000, 98556511000, 98733304000, 98165691000, 98547824000, 98702354000, 97581996000, 98285861000, 98376941000, 98024795000, 98108971000, 97873451000, 98687344000, 98745664000, 92501434000, 88596221000, 50121141000, 43272240000]),
  (1000000000000000000, [99161687000, 99734669000, 99988230000, 99997623000, 99998849000, 99999221000, 99999624000, 99999822000, 99999822000, 99999853000, 99999926000, 99999955000, 99999949000, 99999890000, 99999934000, 99999957000, 99999964000, 99999921000, 99999943000, 99999898000, 99999536000, 99999428000, 98472960000, 64272418000, 53365860000, 30963821000, 23067352000, 16631384000, 20407505000, 26203393000, 20025866000, 32332822000]),
  (1000000000000000000, [99648899000, 99896617000, 99954970000, 99987504000, 99992064000, 99983720000, 99986666000, 99987391000, 99960273000, 99837528000, 99767609000, 99723627000, 99623030000, 99620853000, 99857312000, 99856382000, 99851214000, 99843231000, 99880413000, 99878511000, 99840709000, 99847614000, 99901139000, 99708957000, 99922144000, 99931332000, 99881728000, 99942315000, 95429317000, 76845204000, 40939376000, 34502702000]),
  (1000000000000000000, [67231494000, 89000787000, 97105708000, 99069532000, 99688442000, 99853781000, 99814702000, 99855696000, 99777644000, 99743960000, 99640199000, 99637038000, 99669747000, 99506120000, 99774559000, 99698626000, 99783086000, 99789676000, 99719223000, 99805406000, 99886169000, 99876475000, 99929870000, 99830669000, 99854581000, 99868049000, 99823120000, 99697077000, 98990580000, 93539639000, 95727198000, 96100278000]),
  (1000000000000000000, [94322402000, 97536032000, 97478403000, 98752126000, 99375972000, 99256572000, 98769054000, 99027264000, 98418708000, 97695864000, 96276994000, 95962136000, 95469832000, 94899285000, 98472121000, 98857223000, 98198456000, 98426533000, 98525251000, 98145707000, 94908711000, 73665072000, 73202208000, 75675385000, 86676108000, 86712268000, 59678192000, 62057367000, 66721661000, 44195343000, 16892930000, 18490844000]),
  (1000000000000000000, [99840326000, 99957796000, 99963356000, 99987151000, 99995995000, 99993526000, 99994122000, 99991344000, 99972909000, 99955677000, 99947971000, 99961815000, 99953833000, 99933232000, 99984808000, 99981329000, 99973558000, 99978985000, 99987017000, 99982223000, 99980663000, 99981555000, 99990504000, 99984727000, 99987954000, 99988787000, 99985822000, 99989445000, 99979427000, 99756604000, 98636490000, 93099197000]),
  (1000000000000000000, [96702116000, 98937107000, 99124821000, 99588023000, 99633948000, 99790742000, 99747087000, 99685946000, 99318854000, 98801407000, 98811072000, 98986367000, 98812105000, 98350970000, 99370319000, 99570525000, 99235968000, 99424863000, 99623370000, 99526473000, 99462779000, 99562793000, 99706386000, 99189861000, 94550763000, 80942539000, 72209377000, 82178053000, 85942540000, 76977247000, 59740123000, 50662028000]),
  (1000000000000000000, [97177523000, 98971399000, 98619022000, 99464972000, 99732480000, 99839485000, 99723031000, 99724811000, 99573454000, 99153541000, 98623107000, 98762857000, 98524628000, 97755125000, 99440616000, 99611117000, 99437431000, 99550725000, 99629217000, 99620750000, 99664025000, 99736393000, 99789922000, 99620910000, 99564684000, 98383561000, 94479441000, 94679225000, 88000984000, 84100564000, 94381795000, 95669001000]),
  (1000000000000000000, [91502302000, 97373113000, 98579561000, 99347226000, 99583844000, 99570295000, 99509923000, 99689225000, 99442763000, 99146001000, 99095813000, 98978624000, 99067136000, 98847407000, 99481087000, 99480282000, 99169201000, 99295875000, 99571277000, 99262691000, 99007315000, 99108288000, 99380472000, 99013003000, 99605034000, 99672676000, 99474853000, 99647013000, 87070642000, 72061003000, 32551902000, 26691215000])]

/-- `model/libsvm_nu_svr_model.txt:88-97`: coefficients in units of `10^-18`, vectors in units of `10^-11`. -/
def defaultVectors8 : List (Int × List Int) := [
  (1000000000000000000, [92185872000, 97824418000, 99251430000, 99648686000, 99841933000, 99904728000, 99883247000, 99856837000, 99916058000, 99860136000, 99807144000, 99722833000, 99729868000, 99667655000, 99919713000, 99955215000, 99962631000, 99935084000, 82354309000, 23215625000, -15188844000, 749561320, 4514078400, 6100840600, 1236564700, -888385310, 2303644000, 2706836500, 4442529400, 6374634600, 4007679300, 12984069000]),
  (1000000000000000000, [92424679000, 97958891000, 99395467000, 99746572000, 99926068000, 99972474000, 99968691000, 99960547000, 99972866000, 99969664000, 99966156000, 99952407000, 99941353000, 99831729000, 99966793000, 99975966000, 99983586000, 99982540000, 99974067000, 99985183000, 99995860000, 99996960000, 99457863000, 64244379000, 6610540800, 67550358, 9811625600, 6156394600, 5992355800, 7033805000, 4640210300, 14217189000]),
  (1000000000000000000, [99803150000, 99904666000, 99930127000, 99933801000, 99970699000, 99971150000, 99982444000, 99986695000, 99935466000, 99912657000, 99879253000, 99882108000, 99881237000, 99675812000, 99627077000, 99637118000, 99656601000, 99401460000, 99259252000, 99070124000, 98815927000, 99098851000, 99190017000, 99181642000, 98888440000, 98176681000, 99006638000, 98931334000, 98166402000, 79781240000, 55863187000, 58659487000]),
  (-1000000000000000000, [86128208000, 90215424000, 94285546000, 95099303000, 97534810000, 98875866000, 99346284000, 99008185000, 95839213000, 97470779000, 97620197000, 96996037000, 96895121000, 95567408000, 97031813000, 98089943000, 97881340000, 97327692000, 97885791000, 97373003000, 95409379000, 96130596000, 96085410000, 86541066000, 72991964000, 56751766000, 30084659000, 22999682000, 25207247000, 34222397000, 34846186000, 43796742000]),
  (1000000000000000000, [99007912000, 99385423000, 99650275000, 99546672000, 99851163000, 99946537000, 99964678000, 99945639000, 99705983000, 99789136000, 99751317000, 99771350000, 99700508000, 99010640000, 99352843000, 99564388000, 99637448000, 99441300000, 99277678000, 98951013000, 98726488000, 99261967000, 98327162000, 97303005000, 97694148000, 96591494000, 98840526000, 98377590000, 98146573000, 74354199000, 63655999000, 68083149000]),
  (1000000000000000000, [99334207000, 99540208000, 99729857000, 99665642000, 99712347000, 99817078000, 99929926000, 99915018000, 99522718000, 99602951000, 99438161000, 99395370000, 99394219000, 98971938000, 99209755000, 99551930000, 99405318000, 99055280000, 98985919000, 98605703000, 98421249000, 99179892000, 99178823000, 99090066000, 98991596000, 98642921000, 99456902000, 99365673000, 97424890000, 81497310000, 54055935000, 55514731000]),
  (-1000000000000000000, [97344844000, 97792343000, 98757779000, 99318449000, 99664944000, 99750239000, 99868589000, 99870637000, 99476776000, 99580068000, 99387107000, 99338503000, 99391476000, 99067457000, 99359798000, 99439349000, 99483467000, 99454498000, 99324942000, 99028902000, 98438147000, 98717975000, 98857672000, 98798547000, 98505112000, 92701777000, 89134147000, 67160624000, 35051389000, 38781726000, 38539058000, 48438748000]),
  (1000000000000000000, [98950014000, 99534779000, 99699740000, 99211919000, 99605428000, 99779951000, 99911685000, 99909689000, 99489840000, 99643135000, 99671056000, 99736808000, 99795432000, 99613015000, 99726792000, 99756779000, 99787599000, 99588771000, 99604338000, 99522254000, 99430993000, 99631224000, 99465337000, 99282107000, 99300420000, 98825984000, 99246580000, 98274980000, 96219533000, 92417216000, 75747305000, 80291970000]),
  (-1000000000000000000, [99654340000, 99794661000, 99792292000, 99943565000, 99961391000, 99936759000, 99927402000, 99916261000, 99928915000, 99858093000, 99834220000, 99791514000, 99598919000, 99560438000, 99608840000, 99317130000, 98939622000, 99404180000, 99294267000, 98695018000, 99524609000, 99349751000, 98681696000, 98401087000, 98113669000, 98259454000, 98199435000, 94962905000, 92701380000, 81731351000, 66332565000, 68659884000]),
  (-1000000000000000000, [83505275000, 89336414000, 93690829000, 98336134000, 98532957000, 98104309000, 98470659000, 98599567000, 98803033000, 97911448000, 97938347000, 97291523000, 97008099000, 97770190000, 98751592000, 97894775000, 97959211000, 98826583000, 98518278000, 97259971000, 99070781000, 98121631000, 95798795000, 75238639000, 41550984000, 35049245000, 21941061000, 15669079000, 19218752000, 27444362000, 38823759000, 55013094000])]

/-- `model/libsvm_nu_svr_model.txt:98-107`: coefficients in units of `10^-18`, vectors in units of `10^-11`. -/
def defaultVectors9 : List (Int × List Int) := [
  (-1000000000000000000, [93975620000, 97552324000, 99224260000, 99857003000, 99933823000, 99895135000, 99830447000, 99822150000, 99848951000, 99752068000, 99740901000, 99559064000, 99131314000, 99028252000, 99351922000, 99119950000, 98912267000, 99400314000, 99329843000, 98741313000, 99662071000, 99531657000, 98118446000, 97559383000, 97356970000, 97864542000, 97719649000, 97153901000, 96845280000, 88953990000, 83590105000, 75963284000]),
  (-1000000000000000000, [96181554000, 97551826000, 98651134000, 99633854000, 99691114000, 99499522000, 99473708000, 99626995000, 99672439000, 99474281000, 99483494000, 99266306000, 99115585000, 99324516000, 99598454000, 99496031000, 99390258000, 99649330000, 99565818000, 99256276000, 99744102000, 99603775000, 98935382000, 98705653000, 98383496000, 93987866000, 71232722000, 44762367000, 29503233000, 31215322000, 42665574000, 61550698000]),
  (-1000000000000000000, [79989076000, 88510802000, 95935102000, 98890561000, 99355421000, 98521295000, 97155929000, 97964276000, 97966183000, 97336975000, 96804096000, 97011168000, 97002887000, 97695899000, 97937608000, 97367186000, 96808551000, 96860065000, 97381962000, 96598591000, 96372563000, 95798430000, 96182231000, 83553097000, 5083559600, -9827113600, 15721989000, 15226734000, 16659755000, 18075624000, 14343721000, 23010151000]),
  (-1000000000000000000, [97095680000, 99202022000, 99840486000, 99965461000, 99980314000, 99942310000, 99915189000, 99944283000, 99940484000, 99881796000, 99760938000, 99636298000, 99535594000, 99470008000, 99331930000, 99145779000, 99072437000, 99041651000, 99006364000, 98728578000, 98300471000, 97980455000, 97002372000, 95888753000, 96554363000, 97298805000, 97689398000, 98008424000, 97795839000, 83433831000, 84527714000, 82596865000]),
  (-1000000000000000000, [99318663000, 99547473000, 99783778000, 99937726000, 99966073000, 99928579000, 99865800000, 99875482000, 99844878000, 99758565000, 99599551000, 99446491000, 99448896000, 99427470000, 99547333000, 99330367000, 99035589000, 99158552000, 98939678000, 98823646000, 98535854000, 98140430000, 96578801000, 95098394000, 97450469000, 97877524000, 98256450000, 98401290000, 87682995000, 81186024000, 57831411000, 53037773000]),
  (-1000000000000000000, [92040760000, 96297880000, 98681687000, 99690656000, 99789281000, 99564053000, 99351969000, 99474719000, 99421620000, 99124549000, 98936945000, 99073113000, 99160291000, 99334108000, 99353751000, 99076908000, 99015111000, 99055019000, 99085495000, 98905822000, 98794971000, 98590809000, 98530726000, 98559018000, 98897035000, 88873493000, 66362237000, 53554550000, 34056001000, 25276769000, 18279949000, 27680743000]),
  (-1000000000000000000, [64081081000, 72968968000, 82005524000, 94826899000, 98181547000, 99157278000, 99240841000, 98941892000, 96144941000, 93063841000, 92078156000, 93948368000, 95386660000, 96671352000, 96065039000, 96575368000, 97020834000, 97900934000, 98658031000, 98679045000, 97550039000, 96152148000, 96960859000, 85537479000, 53746995000, 38032125000, 32513642000, 26344933000, 26188836000, 26539625000, 28194326000, 39096968000]),
  (-1000000000000000000, [90935462000, 92562746000, 94754342000, 98853612000, 99599094000, 99753875000, 99777148000, 99795889000, 99302489000, 98969812000, 98781745000, 98473352000, 98893062000, 99202848000, 99105983000, 99139115000, 99099979000, 99376326000, 99580428000, 99522582000, 99200617000, 98991491000, 99306995000, 99067878000, 99057549000, 98313050000, 88282830000, 63457945000, 37750725000, 28930553000, 30246809000, 43009793000]),
  (-1000000000000000000, [97267431000, 98618784000, 99348587000, 99885641000, 99880860000, 99861940000, 99876684000, 99902314000, 99747519000, 99711609000, 99588710000, 99587134000, 99634824000, 99689354000, 99577863000, 99492998000, 99549743000, 99513085000, 99639453000, 99695881000, 99472799000, 99509580000, 99670700000, 99598613000, 99690248000, 99728528000, 99431100000, 96768446000, 93585495000, 91542691000, 90328804000, 93154732000]),
  (-1000000000000000000, [96872172000, 98338689000, 97130278000, 97216327000, 97881855000, 97449145000, 93953681000, 94267604000, 94138213000, 92426882000, 93855675000, 95682102000, 96648456000, 97253623000, 95940803000, 95111403000, 96741561000, 97116589000, 94676159000, 95289136000, 94700734000, 94047272000, 94550917000, 85429665000, 61482507000, 46625439000, 26004952000, 14765317000, 11285389000, 8317356600, 5921853300, 12673597000])]

/-- `model/libsvm_nu_svr_model.txt:108-117`: coefficients in units of `10^-18`, vectors in units of `10^-11`. -/
def defaultVectors10 : List (Int × List Int) := [
  (1000000000000000000, [99659945000, 99831552000, 99758083000, 99766193000, 99825203000, 99652307000, 99041750000, 99195962000, 99312914000, 98944911000, 98883027000, 98850594000, 98941054000, 99198654000, 98955152000, 98925076000, 98971692000, 99120237000, 97959452000, 97253184000, 98106976000, 98092255000, 98564513000, 98374875000, 98400632000, 98805586000, 98660186000, 98429410000, 47843585000, 53431377000, 39390471000, 38582840000]),
  (-1000000000000000000, [99130702000, 99597898000, 99262355000, 99405851000, 99513495000, 99366485000, 98546022000, 98461418000, 98655287000, 98119028000, 98069000000, 98416199000, 98641171000, 98902350000, 98596926000, 98252130000, 99003375000, 99070081000, 98162647000, 98375424000, 98293148000, 98118164000, 97775356000, 98130524000, 97871292000, 90539064000, 65181647000, 46867440000, 25386089000, 11177942000, 7590902100, 16072376000]),
  (-1000000000000000000, [99463510000, 99773218000, 99487013000, 99621130000, 99781720000, 99720541000, 99176063000, 99551847000, 99415155000, 99290992000, 99431345000, 99331432000, 99237705000, 99444491000, 99379626000, 99334368000, 99523276000, 99560018000, 99272757000, 99362934000, 99323644000, 99235520000, 99387751000, 99432151000, 99416237000, 99478364000, 99099651000, 98161184000, 87484443000, 73904836000, 87342245000, 95745573000]),
  (-1000000000000000000, [99954349000, 99969830000, 99973396000, 99935980000, 99959565000, 99976817000, 99948333000, 99953025000, 99983880000, 99984522000, 99989998000, 99940513000, 99775314000, 99850474000, 99803273000, 99794629000, 99867678000, 99453996000, 99454416000, 99782694000, 99819813000, 99653050000, 99446963000, 99653320000, 99702523000, 99623517000, 99550125000, 98323098000, 98705172000, 97739116000, 99089297000, 99708330000]),
  (-1000000000000000000, [95537330000, 97934187000, 99216454000, 98580197000, 98206376000, 98510293000, 98492875000, 98850131000, 99551650000, 99561206000, 99776385000, 99014174000, 97698110000, 99125591000, 99502707000, 98550649000, 99189594000, 96879522000, 96777440000, 98440590000, 97628081000, 95618828000, 93588849000, 94129255000, 89494989000, 84411605000, 82757279000, 84535509000, 84107675000, 83127784000, 86192385000, 89740166000]),
  (-1000000000000000000, [99270196000, 99502746000, 99672269000, 99622762000, 99859237000, 99810116000, 99637944000, 99831068000, 99932428000, 99964959000, 99977909000, 99843361000, 99580856000, 99699454000, 99783560000, 99269709000, 99686545000, 99294206000, 99344985000, 99732974000, 99624944000, 99261242000, 98762001000, 98892548000, 98785031000, 98521823000, 98263424000, 97909621000, 97991258000, 97769829000, 97750603000, 98416315000]),
  (-1000000000000000000, [99244441000, 99709509000, 99861365000, 99700664000, 99849885000, 99883157000, 99702728000, 99748328000, 99867734000, 99877076000, 99956573000, 99818229000, 99621937000, 99782597000, 99882866000, 99740520000, 99864930000, 99411854000, 99309876000, 99763889000, 99687293000, 99363343000, 98832687000, 99006310000, 98796061000, 96650757000, 95646196000, 93964916000, 91674450000, 92193831000, 96041355000, 97808321000]),
  (-1000000000000000000, [90421836000, 98319555000, 97806676000, 94902813000, 95277769000, 96402832000, 97487637000, 97525589000, 96047309000, 96895516000, 95573167000, 94860448000, 94935372000, 96547008000, 97089849000, 96649054000, 96230878000, 96535819000, 96348879000, 96279198000, 97458750000, 95982058000, 93265280000, 83271187000, 71872569000, 53899635000, 35569201000, 34181853000, 39890926000, 45087378000, 46707983000, 56636311000]),
  (-1000000000000000000, [97656734000, 99479621000, 99422586000, 99066647000, 99023628000, 99092938000, 99589844000, 99581390000, 99345602000, 99442230000, 99063619000, 99099807000, 98880490000, 99093004000, 99037962000, 99002504000, 99052749000, 99311430000, 99187408000, 99070010000, 99190308000, 99069595000, 98668401000, 98980354000, 98519987000, 91726409000, 69866656000, 59088901000, 54712932000, 51388223000, 53203168000, 65674271000]),
  (1000000000000000000, [99158906000, 99841946000, 99694380000, 99455620000, 99553491000, 99473475000, 99638445000, 99752747000, 99760826000, 99736379000, 99607317000, 99716568000, 99514558000, 99506849000, 99619874000, 99615981000, 99632156000, 99623294000, 99461368000, 99358100000, 99533531000, 99394865000, 98942125000, 99116551000, 98908688000, 99141049000, 98648895000, 94724278000, 92388634000, 87258573000, 88035648000, 91034650000])]

/-- `model/libsvm_nu_svr_model.txt:118-127`: coefficients in units of `10^-18`, vectors in units of `10^-11`. -/
def defaultVectors11 : List (Int × List Int) := [
  (-1000000000000000000, [99915151000, 99981358000, 99931996000, 99945731000, 99939692000, 99916576000, 99946464000, 99977621000, 99953876000, 99876418000, 99852383000, 99888232000, 99788775000, 99478315000, 99375837000, 98971324000, 99420837000, 99387217000, 98839968000, 98965745000, 98906807000, 98572222000, 98240948000, 98495245000, 98050858000, 98207582000, 97178643000, 94993589000, 83917720000, 79540658000, 63158416000, 57140417000]),
  (-1000000000000000000, [98256920000, 99123915000, 96970855000, 98755800000, 98742154000, 96983455000, 97840883000, 98454440000, 97363437000, 95650721000, 95938988000, 95931962000, 94828266000, 95574768000, 95885110000, 94769845000, 96134367000, 96075298000, 95323449000, 94835754000, 93438905000, 91477975000, 93299571000, 64826433000, 22432577000, 25058133000, 14343260000, 10026150000, 12706369000, 15725920000, 18246975000, 33905684000]),
  (-1000000000000000000, [99255989000, 99831109000, 99867352000, 99935355000, 99910469000, 99793579000, 99844873000, 99928410000, 99847699000, 99697558000, 99782153000, 99758485000, 99530928000, 99244323000, 99367699000, 99225678000, 99480209000, 99329437000, 99069193000, 99320659000, 99295482000, 99104541000, 98733706000, 98699114000, 98591992000, 98645679000, 98659909000, 98134277000, 97798770000, 81710914000, 80692660000, 69625773000]),
  (1000000000000000000, [99961340000, 99987858000, 99961882000, 99978768000, 99968279000, 99945931000, 99959466000, 99969703000, 99907324000, 99846587000, 99885229000, 99904804000, 99843993000, 99753113000, 99816595000, 99789411000, 99829912000, 99778016000, 99278749000, 99323313000, 99201680000, 99035486000, 99287865000, 99382181000, 99064421000, 99176601000, 99136086000, 99073391000, 63114519000, 76074616000, 56732967000, 50902591000]),
  (-60000000000002274, [99700731000, 99885713000, 99592660000, 99779836000, 99749257000, 99487834000, 99628947000, 99750419000, 99567494000, 99085178000, 99245300000, 99444768000, 99240477000, 99138090000, 99344417000, 99206502000, 99321240000, 99341594000, 98899250000, 99267915000, 99080617000, 98377591000, 98645458000, 98801573000, 98331811000, 84669634000, 16113764000, 6487015100, 19666664000, 18461273000, 20533741000, 37261996000]),
  (1000000000000000000, [99414674000, 99868875000, 99697290000, 99834112000, 99754726000, 99495411000, 99607113000, 99812863000, 99620408000, 99418477000, 99695642000, 99803046000, 99752973000, 99739440000, 99767670000, 99722183000, 99775258000, 99707891000, 99536925000, 99657538000, 99680268000, 99570717000, 99615200000, 99526779000, 99467543000, 99455894000, 99442131000, 99260817000, 97093568000, 89170159000, 97236284000, 97068713000]),
  (-1000000000000000000, [99919427000, 99970605000, 99945858000, 99922691000, 99925232000, 99925395000, 99907557000, 99871380000, 99859917000, 99914247000, 99905717000, 99885582000, 99837903000, 99633789000, 98880254000, 98730052000, 98789061000, 98961399000, 98840791000, 98646711000, 99154576000, 99500912000, 98847057000, 98831938000, 98986663000, 98287277000, 98679578000, 99594720000, 98768304000, 94339781000, 81720035000, 74280308000]),
  (-1000000000000000000, [97468800000, 98243920000, 97086227000, 97581591000, 97052924000, 98196803000, 96766852000, 95366025000, 96185902000, 98443210000, 98640355000, 98964742000, 99195740000, 98917318000, 96793649000, 97530129000, 97934422000, 98199852000, 97915029000, 96999652000, 97644329000, 99005003000, 98210256000, 84143497000, 59864940000, 37705310000, 22087237000, 19370276000, 21900050000, 26848458000, 29153830000, 41319268000]),
  (-1000000000000000000, [98981779000, 99613976000, 99863554000, 99911678000, 99868823000, 99803420000, 99721992000, 99744860000, 99748836000, 99827824000, 99807686000, 99826284000, 99726837000, 99349830000, 97916326000, 98044095000, 98678895000, 99002906000, 98946115000, 98316402000, 99014019000, 99509264000, 99014084000, 99010860000, 99057612000, 98198395000, 98660647000, 99340231000, 98604246000, 93228474000, 88212854000, 83278466000]),
  (1000000000000000000, [99821191000, 99912242000, 99876023000, 99836129000, 99805809000, 99740097000, 99591849000, 99193684000, 99408839000, 99696184000, 99747188000, 99865260000, 99849733000, 99729695000, 98950743000, 98715342000, 99130750000, 99332236000, 99260093000, 98902544000, 99216162000, 99562686000, 98944078000, 99274096000, 99222832000, 98750588000, 99096567000, 99635619000, 94986670000, 91435697000, 71448537000, 61940291000])]

/-- `model/libsvm_nu_svr_model.txt:128-137`: coefficients in units of `10^-18`, vectors in units of `10^-11`. -/
def defaultVectors12 : List (Int × List Int) := [
  (-1000000000000000000, [99063774000, 99421954000, 99167473000, 99398523000, 99282737000, 99245256000, 98968984000, 98469902000, 98375699000, 99288493000, 99526082000, 99571448000, 99658637000, 99528008000, 98796134000, 98912921000, 98978152000, 99219330000, 98898722000, 98519243000, 98916678000, 99652014000, 99312328000, 99141426000, 99067911000, 87760774000, 80343520000, 68672042000, 49768955000, 34293739000, 34454210000, 48502014000]),
  (-1000000000000000000, [99313837000, 99780555000, 99808376000, 99764647000, 99610786000, 99523229000, 99338649000, 99470425000, 99412539000, 99709972000, 99745030000, 99792769000, 99851025000, 99676170000, 98745149000, 98841737000, 99109528000, 99346439000, 99222581000, 99074947000, 99494572000, 99710916000, 99364583000, 99576963000, 99504731000, 99194660000, 99055528000, 98042589000, 94210404000, 72301872000, 76159557000, 88830996000]),
  (-1000000000000000000, [99858016000, 99963889000, 99947151000, 99928917000, 99930937000, 99925964000, 99884302000, 99838120000, 99470765000, 99475571000, 99776342000, 99636897000, 99876264000, 99818340000, 99739829000, 99755441000, 99728314000, 99797747000, 99788735000, 99747905000, 99744648000, 99641028000, 99235502000, 99601275000, 99414776000, 98095949000, 98890132000, 99143839000, 97108466000, 79341222000, 62273538000, 59588160000]),
  (-1000000000000000000, [89950526000, 97362155000, 98288381000, 97300538000, 97953612000, 97095594000, 96833797000, 96367623000, 94271963000, 91700907000, 88606135000, 94862044000, 98131896000, 98175953000, 96840378000, 97127590000, 97013119000, 97340392000, 97966580000, 98316830000, 98510307000, 98158819000, 96706143000, 89286194000, 61043605000, 45125403000, 31033534000, 24019290000, 26284113000, 30126167000, 27540503000, 33290915000]),
  (-1000000000000000000, [98585815000, 99682435000, 99658890000, 99408360000, 99809753000, 99746088000, 99830763000, 99622711000, 99234895000, 98969109000, 99125600000, 99385409000, 99719267000, 99496280000, 99350682000, 99455908000, 99541693000, 99540692000, 99531321000, 99531719000, 99664354000, 99686320000, 99354788000, 99166886000, 99307449000, 98875499000, 98634540000, 98803869000, 98684306000, 79900165000, 73677418000, 68900820000]),
  (1000000000000000000, [99929964000, 99971729000, 99930026000, 99933916000, 99932165000, 99934309000, 99921409000, 99923741000, 99811755000, 99366079000, 99518016000, 99529922000, 99907963000, 99831921000, 99738502000, 99779574000, 99826525000, 99712140000, 99704832000, 99755313000, 99790363000, 99697177000, 98992507000, 99697185000, 99727402000, 99629055000, 99723562000, 99692821000, 92137272000, 78329785000, 51753608000, 48225818000]),
  (-1000000000000000000, [95941849000, 99204827000, 99619721000, 99391632000, 99397396000, 99295153000, 98965762000, 98832651000, 98603462000, 97460162000, 97553057000, 98235409000, 99546450000, 99613289000, 99386600000, 99417454000, 99199400000, 99404245000, 99353438000, 99337181000, 99640895000, 99501146000, 99147636000, 98905175000, 98863033000, 95408668000, 68425975000, 51979093000, 37086968000, 33436874000, 28656178000, 34584054000]),
  (-1000000000000000000, [96540830000, 96422457000, 96511369000, 96550741000, 95508879000, 95740924000, 94883597000, 94093611000, 93000238000, 94513857000, 93422918000, 94848648000, 96546401000, 97025797000, 95636306000, 96710628000, 97476092000, 97863082000, 96985150000, 96530863000, 96283020000, 95264330000, 96689391000, 85214718000, 65571881000, 60371148000, 33679357000, 12442335000, 11717704000, 10922026000, 1929762400, 181738310]),
  (-1000000000000000000, [99719832000, 99572693000, 99451376000, 99553397000, 99596979000, 99590069000, 99379547000, 98966534000, 98227044000, 97767282000, 96890157000, 97963952000, 98662906000, 99063895000, 98942103000, 99147633000, 99159277000, 99129780000, 98879650000, 98605375000, 98294225000, 95808462000, 97710657000, 95979135000, 92346584000, 93214221000, 93631988000, 92891118000, 74102381000, 46042731000, 37639748000, 38190899000]),
  (1000000000000000000, [99277948000, 99088500000, 98989771000, 98866348000, 98684100000, 98218194000, 98114394000, 98112532000, 98384069000, 98121850000, 97508528000, 97403193000, 97513601000, 98059609000, 98298579000, 98317993000, 97713230000, 97767175000, 97798739000, 97828353000, 97727191000, 97748298000, 98320593000, 98386990000, 98015259000, 97038009000, 96178348000, 84130718000, 82752751000, 78548273000, 76377703000, 77162890000])]

/-- `model/libsvm_nu_svr_model.txt:138-147`: coefficients in units of `10^-18`, vectors in units of `10^-11`. -/
def defaultVectors13 : List (Int × List Int) := [
  (-1000000000000000000, [99952955000, 99989186000, 99773822000, 99963731000, 99976075000, 99955417000, 99963146000, 99970481000, 99936944000, 99866296000, 99923771000, 99940578000, 99860712000, 99705522000, 99563810000, 99640167000, 99845510000, 99556885000, 99051586000, 99132078000, 99601087000, 99694343000, 99094211000, 99555364000, 99687470000, 99224435000, 98892279000, 98311289000, 97087899000, 92149514000, 80350903000, 83436913000]),
  (-1000000000000000000, [98098155000, 99475156000, 93184787000, 99017736000, 99149269000, 98440135000, 98527038000, 98450550000, 97678410000, 96961029000, 98804943000, 98911463000, 97882242000, 98231825000, 98293312000, 98432347000, 99247159000, 98874655000, 95913729000, 96095001000, 98018404000, 98065527000, 96229289000, 95338297000, 83340700000, 46304422000, 35990480000, 35826940000, 41880241000, 52903522000, 63076246000, 72749951000]),
  (-1000000000000000000, [99781303000, 99959804000, 99643670000, 99970578000, 99983582000, 99953906000, 99928112000, 99924845000, 99877093000, 99792622000, 99903991000, 99887819000, 99594559000, 99390433000, 99445278000, 99657645000, 99840966000, 99733712000, 99155433000, 99485677000, 99776748000, 99766038000, 99569137000, 99731880000, 99666885000, 99160346000, 98930448000, 99050254000, 98949650000, 92048870000, 81892495000, 85097237000]),
  (-1000000000000000000, [99735427000, 99925988000, 98467972000, 99805062000, 99881121000, 99507396000, 99646047000, 99689707000, 99511677000, 99233722000, 99728637000, 99788934000, 99538372000, 99398170000, 99651636000, 99646512000, 99767384000, 99744981000, 99195615000, 99344400000, 99678550000, 99615868000, 99101476000, 99653691000, 99377587000, 89968846000, 68836675000, 49805125000, 49618149000, 59171659000, 69538705000, 79566734000]),
  (-1000000000000000000, [99640709000, 99941450000, 99618267000, 99907215000, 99928507000, 99849382000, 99777463000, 99852971000, 99734557000, 99603046000, 99891067000, 99916028000, 99834409000, 99799735000, 99803517000, 99791202000, 99887944000, 99867515000, 99611036000, 99739559000, 99883634000, 99819371000, 99622635000, 99828792000, 99775917000, 99434909000, 99067240000, 99039329000, 98360045000, 96506271000, 80479069000, 74682049000]),
  (-1000000000000000000, [97197772000, 95762176000, 86622775000, 84877017000, 86470493000, 88552381000, 88757259000, 89393218000, 90866665000, 94090321000, 95700407000, 96729019000, 97645842000, 99469812000, 99774577000, 99713977000, 99752662000, 99838352000, 99242059000, 98198099000, 97616115000, 98064426000, 96576107000, 88292244000, 81446910000, 74650317000, 71060672000, 70293831000, 68551931000, 68621655000, 69421849000, 75083900000]),
  (-1000000000000000000, [99502941000, 99160865000, 97424865000, 96754225000, 96880309000, 97239970000, 97264760000, 97654805000, 98050783000, 98462425000, 98964459000, 99207058000, 99417540000, 99839174000, 99972545000, 99974701000, 99950215000, 99962792000, 99876400000, 99558780000, 99344771000, 99521242000, 99410725000, 99035360000, 98806295000, 94208826000, 88050276000, 82346314000, 75473526000, 74621402000, 76207468000, 82168602000]),
  (-1000000000000000000, [99717363000, 99930190000, 99956570000, 99954510000, 99893320000, 99949412000, 99963238000, 99963409000, 99949291000, 99822455000, 99847481000, 99815129000, 99457262000, 99758117000, 99838484000, 99701194000, 99582987000, 99269211000, 99446836000, 99265920000, 99551501000, 99560918000, 99434446000, 98985373000, 98334395000, 99160200000, 99367771000, 98771407000, 97598892000, 92415519000, 88298683000, 90344294000]),
  (-1000000000000000000, [75773687000, 90044850000, 96440471000, 97292530000, 95026720000, 97840757000, 98288966000, 98669167000, 98770978000, 97797952000, 97782657000, 96626220000, 93853906000, 98276522000, 98991075000, 98416902000, 97679376000, 96863681000, 97447909000, 96899806000, 98002945000, 98451075000, 96904722000, 80778746000, 69587852000, 54682280000, 40214058000, 44652782000, 55933514000, 58204555000, 62568246000, 70434332000]),
  (-1000000000000000000, [93379777000, 98403956000, 99818202000, 99914954000, 99826214000, 99870108000, 99901217000, 99893938000, 99852054000, 99665006000, 99589377000, 99090925000, 96934576000, 98974987000, 99239923000, 98963197000, 98734384000, 98038162000, 98113626000, 97687358000, 98925821000, 99343433000, 98831540000, 95813685000, 96029734000, 98151878000, 97792528000, 97123373000, 94888300000, 88559230000, 84469155000, 86684134000])]

/-- `model/libsvm_nu_svr_model.txt:148-157`: coefficients in units of `10^-18`, vectors in units of `10^-11`. -/
def defaultVectors14 : List (Int × List Int) := [
  (-1000000000000000000, [92052137000, 97590213000, 99090584000, 99525640000, 98754300000, 99417221000, 99693428000, 99709887000, 99677244000, 99446362000, 99439937000, 99327072000, 98763026000, 99664097000, 99743880000, 99538865000, 99398956000, 99117749000, 99265621000, 99157486000, 99604548000, 99607992000, 99261282000, 98787138000, 98200316000, 97178652000, 92004484000, 81781446000, 73517860000, 71539240000, 76460185000, 84591847000]),
  (-1000000000000000000, [96896856000, 99340498000, 99864953000, 99892171000, 99675521000, 99890364000, 99908079000, 99901761000, 99804797000, 99393988000, 99413720000, 99407647000, 98718750000, 99651005000, 99766707000, 99591363000, 99467874000, 99027249000, 99230651000, 99283453000, 99698727000, 99711556000, 99591971000, 99105509000, 98824393000, 99309269000, 99214237000, 98421064000, 96432068000, 92656250000, 91045577000, 90764415000]),
  (-1000000000000000000, [99902933000, 99966864000, 99937614000, 99891144000, 99935680000, 99941651000, 99938178000, 99958851000, 99938304000, 99840908000, 99753447000, 99697182000, 99186990000, 99146511000, 99103342000, 99299789000, 98963495000, 99229418000, 99382517000, 99081889000, 99584352000, 99408955000, 99083252000, 98979688000, 98783293000, 99224585000, 98372588000, 95036025000, 92479372000, 88648091000, 78447777000, 78022753000]),
  (-1000000000000000000, [97077297000, 98234415000, 96852269000, 97028243000, 97170689000, 98251525000, 98778682000, 99167271000, 98977887000, 97994036000, 96901905000, 96255326000, 96289434000, 96932833000, 96692823000, 97793602000, 97392696000, 98360537000, 98782698000, 96681381000, 98306168000, 97712582000, 96082829000, 81357577000, 45017028000, 39747271000, 35961934000, 27885441000, 32896397000, 37050750000, 40129564000, 55426422000]),
  (-1000000000000000000, [99264882000, 99601452000, 99360825000, 99311214000, 99462286000, 99698841000, 99700472000, 99779542000, 99775576000, 99450376000, 98889965000, 99258582000, 98960194000, 99068807000, 99087473000, 99449437000, 99223951000, 99645650000, 99627782000, 99256670000, 99624498000, 99448234000, 99094235000, 99015731000, 98721072000, 97105135000, 74524883000, 52958503000, 46078074000, 43558767000, 46708058000, 64055715000]),
  (-1000000000000000000, [91780873000, 97849139000, 98308869000, 98216208000, 97948436000, 97638162000, 98718626000, 98246333000, 96332341000, 90174251000, 88255083000, 96066234000, 96672406000, 96723717000, 97091735000, 96869031000, 96651733000, 96583815000, 96923324000, 97698383000, 97156653000, 97276755000, 95910463000, 86115292000, 32118520000, 6255265000, 8063999800, 19123286000, 30526869000, 35405162000, 42616272000, 53246339000]),
  (-1000000000000000000, [99374754000, 99860883000, 99884109000, 99929359000, 99845157000, 99724944000, 99911448000, 99963992000, 99927397000, 99654660000, 99525613000, 99589620000, 99558371000, 99589416000, 99529201000, 99248863000, 99181878000, 98954979000, 98622165000, 99019294000, 99267280000, 99266924000, 99282454000, 98412984000, 98067793000, 98501571000, 98624725000, 98629960000, 98580949000, 92001365000, 86026617000, 78758488000]),
  (-1000000000000000000, [99210822000, 99673665000, 99525980000, 99623162000, 99601628000, 99401317000, 99796983000, 99808615000, 99572043000, 99004283000, 98461456000, 99467724000, 99553556000, 99472822000, 99412960000, 99393547000, 99420870000, 99228732000, 99131472000, 99521978000, 99483162000, 99417336000, 99268332000, 98686578000, 98822442000, 93405843000, 82531012000, 71233030000, 48520925000, 39667425000, 47304432000, 59779860000]),
  (1000000000000000000, [99051914000, 99785417000, 99801787000, 99691249000, 99500875000, 99477419000, 99812011000, 99906947000, 99818195000, 99515204000, 99164175000, 99750022000, 99775071000, 99765451000, 99813598000, 99812470000, 99851574000, 99798186000, 99814187000, 99903510000, 99934092000, 99892746000, 99469456000, 99142281000, 99316632000, 99480512000, 99326315000, 99530981000, 99141073000, 96738645000, 94612228000, 92074959000]),
  (-1000000000000000000, [99825830000, 99913325000, 99903623000, 99941163000, 99954908000, 99951587000, 99955656000, 99978244000, 99977318000, 99960352000, 99921847000, 99889289000, 99812837000, 99807489000, 99718823000, 99401104000, 98813177000, 99104212000, 99528842000, 99603359000, 99674946000, 99064228000, 99274114000, 99053752000, 99256013000, 99198397000, 99363085000, 99560071000, 99664740000, 95585521000, 85146438000, 80136494000])]

/-- `model/libsvm_nu_svr_model.txt:158-167`: coefficients in units of `10^-18`, vectors in units of `10^-11`. -/
def defaultVectors15 : List (Int × List Int) := [
  (-1000000000000000000, [92792517000, 95844063000, 95498896000, 97667334000, 98280235000, 98030742000, 98721954000, 98805746000, 98303496000, 96047027000, 94669913000, 95652676000, 96078841000, 97096581000, 97340155000, 96529900000, 96450381000, 97231125000, 96312844000, 97887573000, 97379931000, 93579872000, 95463919000, 68858461000, 12968292000, 6917641300, 4813413800, 3683625200, 7409207800, 7884339600, 7891242700, 19076137000]),
  (-1000000000000000000, [99037126000, 99628774000, 99595596000, 99804505000, 99873223000, 99834201000, 99875143000, 99963963000, 99958819000, 99900968000, 99748572000, 99663341000, 99398167000, 99543935000, 99393352000, 99270875000, 98863122000, 99536728000, 99525471000, 99644895000, 99579150000, 99144519000, 98750482000, 98333512000, 98734396000, 98144254000, 98163422000, 98124161000, 98052334000, 94338818000, 94299309000, 91755141000]),
  (-1000000000000000000, [98821111000, 99402159000, 99201555000, 99465721000, 99498448000, 99625031000, 99792352000, 99858576000, 99815708000, 99643266000, 99107650000, 98893460000, 99052882000, 99328172000, 99283362000, 99214652000, 98725473000, 99291016000, 99349666000, 99555919000, 99454136000, 97928855000, 98598998000, 98221427000, 98818376000, 98579373000, 98047365000, 98671563000, 98303079000, 95338826000, 79265188000, 72698582000]),
  (1000000000000000000, [98687588000, 99434641000, 99235551000, 99578152000, 99762577000, 99756522000, 99840191000, 99923654000, 99885714000, 99814063000, 99700513000, 99632513000, 99515084000, 99750730000, 99643755000, 99622214000, 99450652000, 99718422000, 99777532000, 99812277000, 99819822000, 99562008000, 99572486000, 99343920000, 99655710000, 99563190000, 91183442000, 88821532000, 87696196000, 77994211000, 86300396000, 88848021000]),
  (-1000000000000000000, [99908246000, 99924902000, 99856615000, 99884530000, 99884043000, 99786659000, 99860393000, 99876041000, 99861879000, 99772748000, 99777953000, 99748046000, 99652649000, 99578409000, 98899328000, 98320057000, 99351596000, 99431961000, 98704321000, 98031212000, 98362705000, 98749762000, 98513743000, 98977973000, 98613409000, 97711985000, 98816564000, 99418841000, 97380496000, 81029470000, 65421373000, 69722889000]),
  (-1000000000000000000, [96962679000, 97389379000, 94787143000, 96320348000, 95590834000, 92585680000, 93534216000, 96247565000, 97567025000, 96509690000, 96218472000, 97273738000, 98282061000, 98437088000, 96017475000, 94355919000, 97650078000, 98081986000, 96547230000, 95092559000, 96354962000, 96748188000, 94802952000, 93454290000, 67475659000, 48517194000, 31757250000, 25531761000, 35090211000, 46092760000, 39955096000, 45668929000]),
  (-1000000000000000000, [99436775000, 99752088000, 99696978000, 99804034000, 99773599000, 99520326000, 99641247000, 99751338000, 99802022000, 99705982000, 99641135000, 99590931000, 99479898000, 99266938000, 98256470000, 97332930000, 99064129000, 99291360000, 98515785000, 97983821000, 98406434000, 98390493000, 96841927000, 97874427000, 97906364000, 96455946000, 97057065000, 97260027000, 93724573000, 62651088000, 70727905000, 82360782000]),
  (-1000000000000000000, [99088149000, 99092221000, 98383610000, 98944698000, 98682629000, 97850991000, 98226701000, 98814473000, 99082369000, 98844013000, 98774877000, 99197379000, 99272530000, 99410334000, 98894289000, 98338619000, 99332443000, 99436261000, 98728315000, 97958715000, 98296599000, 99081832000, 98575138000, 99165753000, 98968299000, 91712837000, 85641186000, 70168130000, 58948297000, 57749324000, 52534407000, 60232116000]),
  (1000000000000000000, [99541268000, 99678269000, 99555491000, 99710940000, 99638590000, 99266074000, 99393613000, 99621284000, 99608789000, 99526838000, 99630739000, 99674313000, 99723626000, 99721770000, 99283975000, 99047262000, 99623141000, 99726529000, 99317798000, 99133529000, 99240958000, 99344667000, 99078719000, 99407033000, 99384241000, 98972938000, 98808861000, 97392147000, 78062159000, 43249383000, 70934400000, 82354256000]),
  (-1000000000000000000, [96601495000, 97773395000, 96074047000, 95334801000, 96423619000, 96586642000, 96186989000, 96725687000, 97394647000, 97322883000, 95917775000, 95855997000, 96637925000, 96740667000, 96383816000, 95703463000, 96144493000, 96883956000, 97271169000, 95945336000, 95166868000, 94006033000, 93302335000, 79567307000, 35475812000, 21885298000, 19639966000, 13457864000, 14086382000, 14661839000, 12442355000, 17486279000])]

/-- `model/libsvm_nu_svr_model.txt:168-177`: coefficients in units of `10^-18`, vectors in units of `10^-11`. -/
def defaultVectors16 : List (Int × List Int) := [
  (-1000000000000000000, [99324403000, 99794111000, 99692143000, 99630178000, 99762658000, 99756810000, 99793114000, 99832549000, 99857974000, 99751060000, 99632046000, 99476595000, 99262476000, 98953066000, 98420117000, 98183412000, 98673989000, 98922744000, 98917998000, 98593048000, 98515140000, 97869483000, 96422579000, 96616625000, 96785033000, 96810002000, 96373363000, 96844983000, 97655388000, 89407567000, 86848057000, 70932681000]),
  (1000000000000000000, [99306595000, 99725891000, 99534498000, 99505851000, 99487342000, 99446930000, 99448420000, 99559520000, 99670925000, 99611045000, 99521885000, 99423940000, 99528584000, 99556464000, 99406116000, 99293704000, 99453883000, 99474455000, 99469435000, 99402778000, 99370971000, 99153656000, 99078842000, 99149303000, 99305853000, 99315743000, 98210726000, 94845046000, 95192566000, 91922673000, 85458655000, 88101270000]),
  (-1000000000000000000, [87106048000, 91659815000, 90495854000, 88857776000, 89379530000, 94518127000, 96017442000, 97414589000, 97985247000, 98309613000, 97535320000, 96872048000, 96759441000, 97553655000, 98166111000, 98062884000, 97681204000, 97433799000, 98192220000, 98204423000, 97542169000, 95858128000, 94107536000, 89849979000, 75608060000, 41163060000, 19345636000, 26130691000, 37372756000, 41413414000, 37511763000, 44482452000]),
  (-1000000000000000000, [95177493000, 98468522000, 98409028000, 97551495000, 97734699000, 99253815000, 99699948000, 99776929000, 99784719000, 99791520000, 99681161000, 99369442000, 98950268000, 98593216000, 98602817000, 98543802000, 98605819000, 98574826000, 98963318000, 99280973000, 99093070000, 98376811000, 96599464000, 97960574000, 97916454000, 95970300000, 93749737000, 90576672000, 88200213000, 80478603000, 74232387000, 76515385000]),
  (-1000000000000000000, [96177088000, 97565494000, 97273416000, 96339455000, 96244849000, 98493940000, 99138791000, 99296504000, 99292266000, 99391919000, 99269697000, 99035401000, 98967147000, 99065228000, 99362189000, 99359989000, 99168124000, 98899273000, 99308432000, 99445799000, 99322345000, 98988356000, 98253966000, 98889615000, 98842093000, 95022894000, 81399670000, 63683921000, 52967434000, 45185107000, 41577211000, 50667515000]),
  (-1000000000000000000, [98430319000, 97734872000, 95269894000, 93067502000, 93807360000, 92808747000, 90538258000, 90859438000, 92947203000, 93960942000, 92344648000, 92160117000, 92592626000, 91886282000, 90154203000, 90801946000, 92217412000, 92580160000, 92209570000, 92671288000, 90506018000, 88686994000, 92787415000, 80757568000, 33993242000, 18541311000, 14944846000, 5332062700, 3241403000, 6482519800, 2565941700, 6404591300]),
  (1000000000000000000, [99935527000, 99929234000, 99874990000, 99776009000, 99733185000, 99762997000, 99756653000, 99687384000, 99663162000, 99745389000, 99568968000, 99278909000, 99151061000, 97914118000, 97458977000, 97749787000, 98511452000, 98328627000, 98186562000, 98567504000, 98521301000, 97970656000, 98027521000, 97491486000, 97481552000, 98008500000, 96608488000, 97050603000, 97863825000, 78997171000, 78215967000, 73472710000]),
  (-1000000000000000000, [99829846000, 99946125000, 99937699000, 99918157000, 99890604000, 99790071000, 99919674000, 99949182000, 99954718000, 99959360000, 99939872000, 99877764000, 99789335000, 99727924000, 99703387000, 99448441000, 99158877000, 98979695000, 99143010000, 99070921000, 99145878000, 98816612000, 98871360000, 98370209000, 98497641000, 98651351000, 98579343000, 98115333000, 98064025000, 90168968000, 75113085000, 74718014000]),
  (-1000000000000000000, [94022044000, 97704866000, 96432184000, 96401700000, 98906241000, 98128550000, 96693284000, 96824735000, 95722961000, 97656170000, 97642599000, 96042139000, 95791218000, 96445669000, 97077023000, 94978371000, 92952006000, 92790045000, 91750720000, 89689595000, 90431309000, 90063153000, 90626533000, 74986011000, 25059038000, 14591449000, 25031091000, 27120669000, 27858592000, 30300396000, 27311691000, 34654620000]),
  (-1000000000000000000, [97824979000, 99296866000, 99466634000, 99461790000, 99733418000, 99815178000, 99697283000, 99844341000, 99895003000, 99914130000, 99844451000, 99751334000, 99476096000, 99504873000, 99517285000, 99104980000, 98838223000, 98436347000, 98499821000, 98240906000, 98466084000, 98021742000, 96126183000, 96318705000, 97777665000, 98275658000, 97893186000, 98176743000, 98736941000, 89805001000, 85817137000, 84405504000])]

/-- `model/libsvm_nu_svr_model.txt:178-187`: coefficients in units of `10^-18`, vectors in units of `10^-11`. -/
def defaultVectors17 : List (Int × List Int) := [
  (-1000000000000000000, [99128837000, 99708398000, 99544308000, 99518464000, 99670390000, 99579429000, 99627515000, 99639577000, 99688046000, 99646900000, 99664200000, 99576069000, 99397237000, 99461116000, 99424556000, 99095833000, 98994987000, 98702117000, 98442284000, 98221618000, 98065592000, 98473400000, 98376444000, 97839618000, 97721465000, 87769055000, 50231633000, 39815783000, 36554691000, 38154054000, 32126662000, 41204191000]),
  (-1000000000000000000, [98327544000, 98670106000, 99188061000, 97578889000, 87541334000, 85782070000, 87560742000, 87819709000, 90795428000, 90631521000, 93005209000, 94846448000, 93510209000, 93213722000, 91962394000, 98001891000, 98344730000, 95074922000, 95397853000, 97205546000, 97841095000, 97137035000, 95592087000, 90828467000, 68032691000, 49932712000, 35053764000, 30387056000, 30471993000, 32955093000, 27886894000, 36730403000]),
  (-1000000000000000000, [99416172000, 99446649000, 99717121000, 99438353000, 97048152000, 94763068000, 95064297000, 96641321000, 98180521000, 98213901000, 98089614000, 98306319000, 97196041000, 98369447000, 98531665000, 99269159000, 99029698000, 97812948000, 98065191000, 98892536000, 99254985000, 99259253000, 98495734000, 98867324000, 98148228000, 85007764000, 84418827000, 68534463000, 40730442000, 36783312000, 33181861000, 46058626000]),
  (-1000000000000000000, [99541031000, 99733082000, 99803206000, 99377571000, 98130158000, 98051372000, 98747089000, 99169172000, 99139555000, 99426147000, 99488388000, 99283332000, 98661212000, 98857906000, 98530153000, 99068685000, 99084036000, 98273191000, 97929615000, 99158415000, 99524179000, 99477156000, 98990664000, 98969232000, 98241862000, 96724666000, 97947303000, 96882562000, 95974504000, 91821091000, 91160199000, 91368560000]),
  (-1000000000000000000, [94323520000, 95317635000, 95207103000, 95630406000, 96333868000, 96423961000, 95954201000, 97308429000, 97783554000, 97306255000, 95909820000, 95895155000, 96430376000, 96283251000, 94065865000, 95728190000, 96680680000, 97261863000, 95989662000, 93015875000, 94877831000, 95336372000, 94458938000, 31807776000, -1124489900, 20925531000, 29576564000, 14314334000, 12549939000, 9228498200, -3763390800, -2777813700]),
  (-1000000000000000000, [99189715000, 99611708000, 99645951000, 99756745000, 99773463000, 99717696000, 99694293000, 99806946000, 99830328000, 99768885000, 99519837000, 99396264000, 98916013000, 98271100000, 96140994000, 97107250000, 97359986000, 97368743000, 96863141000, 94952656000, 96897372000, 97077400000, 94547330000, 92764518000, 95441250000, 96955168000, 98141061000, 98538498000, 97826019000, 89189513000, 88252261000, 83213089000]),
  (-1000000000000000000, [99116441000, 99414800000, 99355388000, 99435933000, 99553560000, 99301210000, 99053980000, 99441638000, 99454233000, 99412876000, 99127363000, 98919993000, 98875771000, 98700121000, 97677720000, 98527976000, 98574908000, 98857160000, 98261683000, 96458278000, 97329237000, 97882042000, 97708305000, 96355880000, 97099852000, 98059988000, 99110403000, 99260419000, 88816307000, 89799248000, 62617098000, 50567808000]),
  (-1000000000000000000, [98169284000, 98515936000, 98310158000, 98441467000, 98773642000, 98538477000, 98575064000, 98914748000, 99138831000, 99084496000, 98422555000, 98554832000, 98496438000, 98575140000, 97833646000, 98367226000, 98468076000, 98934370000, 98496744000, 96925436000, 97912430000, 98405271000, 98083489000, 96851702000, 97087327000, 86582957000, 62622220000, 53247174000, 43592643000, 19255563000, 1060345000, 1935175600]),
  (-1000000000000000000, [99502053000, 99880663000, 99924017000, 99894737000, 99918354000, 99967274000, 99949803000, 99878493000, 99896757000, 99899761000, 99813872000, 99485902000, 99661925000, 99451478000, 99153862000, 99387397000, 98954210000, 99374505000, 99546245000, 97316304000, 99074506000, 99600462000, 99543524000, 99007988000, 99483102000, 99735920000, 99707626000, 99748869000, 97943094000, 98011783000, 90404906000, 88469467000]),
  (-1000000000000000000, [78515945000, 94707848000, 98904208000, 98919369000, 99227290000, 99749773000, 99603924000, 97197418000, 98362543000, 98279146000, 96471800000, 96067787000, 97808500000, 98050953000, 98239798000, 96996544000, 95473012000, 97422545000, 97974845000, 94180898000, 94408486000, 96926504000, 97561721000, 78385956000, -68051638000, -51134218000, 1216022700, 11078027000, 34978134000, 29442575000, 47337551000, 74200772000])]

/-- `model/libsvm_nu_svr_model.txt:188-197`: coefficients in units of `10^-18`, vectors in units of `10^-11`. -/
def defaultVectors18 : List (Int × List Int) := [
  (-1000000000000000000, [94431757000, 99525736000, 99840458000, 99807062000, 99885035000, 99957831000, 99936707000, 99712408000, 99740813000, 99716766000, 99576373000, 99226169000, 99671089000, 99081019000, 98732003000, 98998068000, 98339661000, 98887857000, 99067033000, 96503431000, 98488085000, 99218232000, 99029277000, 98248396000, 99160097000, 99400535000, 99096058000, 98891350000, 97011166000, 96547204000, 95433558000, 96213719000]),
  (-1000000000000000000, [95979519000, 98933377000, 99607594000, 99691837000, 99777936000, 99933494000, 99889036000, 99360395000, 99239454000, 98491002000, 98525906000, 99211737000, 99681539000, 99716067000, 99291340000, 99429584000, 99066547000, 99568266000, 99534923000, 98332593000, 98920169000, 99463797000, 99494602000, 99080846000, 99674892000, 99108193000, 90380615000, 90054034000, 61800559000, 34946987000, 50327954000, 78945729000]),
  (-1000000000000000000, [92951899000, 92692412000, 91089849000, 97208891000, 95260027000, 97023260000, 97053367000, 91659605000, 93140822000, 95773238000, 97001261000, 95352013000, 94471909000, 95451656000, 94316485000, 91576519000, 90011778000, 90280782000, 89501874000, 88445059000, 85798893000, 80880702000, 82752591000, 63962805000, 41096011000, 36227595000, 27735312000, 23023544000, 24321063000, 22960211000, 8366468300, 13204450000]),
  (1000000000000000000, [98343703000, 99068607000, 98877413000, 99644118000, 99696368000, 99916688000, 99921306000, 99859443000, 99851228000, 99903924000, 99891696000, 99798570000, 99652833000, 99590205000, 99388770000, 98938554000, 98570315000, 98776084000, 98479523000, 97652979000, 97504596000, 96270860000, 95523940000, 94764134000, 95541139000, 95194527000, 96295685000, 95300217000, 86488688000, 7293286400, 51610014000, 57533631000]),
  (1000000000000000000, [99751621000, 99756840000, 99744261000, 99867846000, 99732019000, 99817047000, 99829104000, 99634459000, 99403566000, 99464666000, 99714158000, 99547347000, 99375448000, 99434551000, 98891718000, 98612066000, 98449104000, 98396542000, 98178819000, 97470797000, 96565256000, 95539434000, 96491609000, 96593093000, 96783983000, 96885259000, 97358863000, 94887929000, 32468881000, 5197392200, 20293878000, 26307493000]),
  (1000000000000000000, [97959900000, 98537078000, 98601585000, 99437486000, 99376554000, 99634630000, 99537065000, 99274880000, 99643529000, 99767045000, 99829584000, 99719755000, 99456949000, 99383576000, 98978749000, 98341829000, 98026819000, 98121209000, 97964509000, 97679852000, 97292785000, 97214531000, 97032183000, 96669004000, 96887551000, 97330852000, 97059069000, 95282271000, 88385611000, 87176154000, 96939788000, 97531154000]),
  (-1000000000000000000, [94291523000, 95702147000, 97841946000, 98814664000, 96895820000, 90202003000, 94571323000, 96205273000, 89509524000, 86904710000, 92955619000, 95053181000, 94736136000, 94345995000, 91520966000, 94154772000, 94772534000, 94295684000, 93281960000, 93496508000, 94941717000, 96007212000, 95848041000, 91270503000, 86488600000, 68012998000, 34617998000, 31400664000, 34092730000, 37725887000, 40644709000, 52924455000]),
  (-1000000000000000000, [99257041000, 99670470000, 99874708000, 99923260000, 99812317000, 99384751000, 99727971000, 99901237000, 99720133000, 99522394000, 99554997000, 99517559000, 98891505000, 97931843000, 96171935000, 97170609000, 97043383000, 97084033000, 97113876000, 97603628000, 98520056000, 98764236000, 98336480000, 98250030000, 99032435000, 98402451000, 98166587000, 98819442000, 98898886000, 95900261000, 91006105000, 90867218000]),
  (-1000000000000000000, [99271051000, 99636503000, 99821294000, 99886756000, 99749378000, 99101990000, 99471702000, 99627220000, 98951432000, 98494344000, 99036157000, 99304537000, 99101209000, 98325148000, 97857185000, 98514152000, 97733313000, 97747086000, 97662582000, 97910883000, 98433307000, 98585801000, 98483481000, 98462031000, 99241004000, 98890826000, 98247597000, 98908548000, 97926728000, 95298427000, 79392124000, 78152196000]),
  (-1000000000000000000, [98603302000, 98994690000, 99523352000, 99756879000, 99433673000, 97901425000, 98856857000, 99255664000, 98159602000, 97576652000, 98445936000, 98563087000, 98568298000, 98509494000, 97911380000, 98545729000, 98425319000, 98339412000, 98057979000, 98237890000, 98166800000, 98789462000, 98868709000, 98773463000, 99283144000, 93391436000, 66312390000, 59022310000, 51419761000, 45913722000, 46766273000, 59963352000])]

/-- `model/libsvm_nu_svr_model.txt:198-207`: coefficients in units of `10^-18`, vectors in units of `10^-11`. -/
def defaultVectors19 : List (Int × List Int) := [
  (1000000000000000000, [99126422000, 99464987000, 99718260000, 99815035000, 99671037000, 98740703000, 99414418000, 99637889000, 99059233000, 98824278000, 99357176000, 99518773000, 99289539000, 99152893000, 98398834000, 98738400000, 98682556000, 98469814000, 98270619000, 98775600000, 99339007000, 99418868000, 99307665000, 99426766000, 99636248000, 99343724000, 98962500000, 98754980000, 98635637000, 97435669000, 96383412000, 95605830000]),
  (-1000000000000000000, [99413767000, 99802938000, 99922709000, 99913204000, 99884372000, 99909360000, 99931364000, 99947615000, 99934851000, 99926971000, 99866092000, 99739202000, 99766795000, 99665578000, 99757970000, 99634771000, 99469626000, 99357510000, 99214259000, 99635001000, 99668479000, 99494681000, 99740903000, 99793172000, 99640962000, 99685502000, 99891737000, 99530130000, 98635462000, 93495767000, 90491708000, 93806471000]),
  (-1000000000000000000, [84281078000, 93178480000, 97528450000, 97537685000, 96574365000, 97559245000, 98594562000, 98600789000, 98396087000, 98522850000, 96563767000, 96150863000, 98329723000, 98866294000, 99307268000, 98796721000, 98087273000, 97858060000, 97868650000, 98625802000, 98482662000, 98551964000, 99313305000, 81537335000, -3179436200, 2020147900, 23485583000, 33129318000, 46538773000, 59056562000, 69192649000, 78800894000]),
  (-1000000000000000000, [98343452000, 99415328000, 99688597000, 99594330000, 99257986000, 99687269000, 99800692000, 99872141000, 99855149000, 99859674000, 99739757000, 99614242000, 99617525000, 99490073000, 99675414000, 99448641000, 99411959000, 99396509000, 99228748000, 99359229000, 99432611000, 99598383000, 99513403000, 99497287000, 98642265000, 99180517000, 99571559000, 98971092000, 98953142000, 95745843000, 93184174000, 94584371000]),
  (-1000000000000000000, [98013809000, 99164730000, 99676199000, 99615241000, 99573225000, 99739942000, 99820158000, 99860771000, 99811219000, 99800265000, 99438877000, 99592656000, 99762983000, 99747427000, 99853482000, 99707728000, 99631310000, 99448478000, 99491531000, 99801383000, 99742279000, 99694542000, 99738860000, 99840741000, 99749296000, 99757323000, 99819087000, 99253897000, 98158669000, 93353382000, 89503077000, 92345601000]),
  (-1000000000000000000, [95167040000, 98343609000, 99454868000, 99338614000, 99251429000, 99423672000, 99658221000, 99660426000, 99594771000, 99646622000, 99195246000, 99048668000, 99626746000, 99519755000, 99781938000, 99574849000, 99507217000, 99425529000, 99458472000, 99777022000, 99716726000, 99755058000, 99758078000, 99853812000, 99633293000, 99496584000, 91016790000, 67017048000, 61724720000, 68212511000, 79693613000, 90295171000]),
  (-1000000000000000000, [99952792000, 99991328000, 99993690000, 99993975000, 99951201000, 99981499000, 99949712000, 99954514000, 99949932000, 99904356000, 99913705000, 99869048000, 99608444000, 99590113000, 99568313000, 99505883000, 99165902000, 99572489000, 99601793000, 99659824000, 99828828000, 99699468000, 99604342000, 99486860000, 99187585000, 98694223000, 98079772000, 98211750000, 96453479000, 93436609000, 94106303000, 94514704000]),
  (-1000000000000000000, [99152935000, 99564059000, 99394760000, 99676730000, 98728189000, 98246044000, 95221540000, 95519601000, 96877310000, 95510999000, 96459739000, 94879419000, 94987260000, 95227961000, 95791013000, 96100717000, 94243104000, 93386242000, 93080255000, 93752417000, 93573998000, 91671250000, 90263070000, 86690159000, 79374553000, 70387163000, 69355978000, 70183607000, 71125893000, 70609360000, 74397017000, 78883909000]),
  (-1000000000000000000, [99704829000, 99940659000, 99963937000, 99986292000, 99906354000, 99919786000, 99780659000, 99786595000, 99848610000, 99743319000, 99789814000, 99566258000, 99249199000, 99218185000, 99155719000, 99214065000, 98885563000, 99222245000, 99210988000, 99283041000, 99457883000, 99109131000, 98436090000, 98227749000, 97906198000, 97312278000, 97316499000, 96968760000, 96496176000, 94664150000, 94886962000, 94555432000]),
  (-1000000000000000000, [99807564000, 99921598000, 99903952000, 99931982000, 99568643000, 99823243000, 99473620000, 99381262000, 99502366000, 99354381000, 99483367000, 99369681000, 99129718000, 99165348000, 99255010000, 99226203000, 98672508000, 99021305000, 99039378000, 99180217000, 99274546000, 98998779000, 98484505000, 98247925000, 98146628000, 95021338000, 90934815000, 87358343000, 83218676000, 81528513000, 85686884000, 89808158000])]

/-- `model/libsvm_nu_svr_model.txt:208-217`: coefficients in units of `10^-18`, vectors in units of `10^-11`. -/
def defaultVectors20 : List (Int × List Int) := [
  (-1000000000000000000, [98708918000, 98818085000, 97324540000, 95804359000, 88445316000, 95727260000, 97919804000, 98388024000, 96460191000, 95745835000, 97923176000, 96345289000, 96262376000, 98415939000, 98459710000, 97328582000, 96503725000, 96542906000, 96297285000, 94692483000, 95892389000, 97418094000, 97570102000, 71620099000, 27758824000, 12882482000, 15632680000, 17615393000, 14343866000, 14409932000, 8139187400, 11388466000]),
  (1000000000000000000, [99979019000, 99986546000, 99966403000, 99922053000, 99727710000, 99887156000, 99929747000, 99938828000, 99875345000, 99805865000, 99845164000, 99683372000, 99606722000, 99821217000, 99802669000, 99666206000, 99509019000, 99280202000, 99110189000, 98605434000, 98925292000, 99315976000, 99349086000, 98993008000, 98737297000, 98628273000, 99313083000, 99534714000, 93137766000, 90424291000, 70148372000, 59913031000]),
  (-1000000000000000000, [99597925000, 99665598000, 99173479000, 98284008000, 96198441000, 98721352000, 99186660000, 99352869000, 99002487000, 98847870000, 99242832000, 98492992000, 98347670000, 99420736000, 99211817000, 98820823000, 98373450000, 98093543000, 98335785000, 97472009000, 98001058000, 98680293000, 98854911000, 98493997000, 97090140000, 75751572000, 68208230000, 61782156000, 39584592000, 25089359000, 11705679000, 13674862000]),
  (1000000000000000000, [99808207000, 99900761000, 99795185000, 99480303000, 98800139000, 99568762000, 99737314000, 99754168000, 99580156000, 99472529000, 99533741000, 99391453000, 99436003000, 99675490000, 99574406000, 99437082000, 99238510000, 99067758000, 99016330000, 98338377000, 99119438000, 99509082000, 99532747000, 99458961000, 99461599000, 99300991000, 99580891000, 99527053000, 98024157000, 93072096000, 94232867000, 95345719000]),
  (1000000000000000000, [99910336000, 99918038000, 99879348000, 99809386000, 99842706000, 99838455000, 99863295000, 99879864000, 99809747000, 99728163000, 99644765000, 99421768000, 99047574000, 98400535000, 97626909000, 96918585000, 96594182000, 95478982000, 90670168000, 89678292000, 91336514000, 92604186000, 96761770000, 97828071000, 97755835000, 97324259000, 97439905000, 99214157000, 99210606000, 96078045000, 74515093000, 65172113000]),
  (-1000000000000000000, [97505684000, 97655112000, 96775000000, 93571120000, 93607300000, 94364194000, 94516124000, 95794423000, 95579549000, 95589361000, 95200593000, 94574772000, 95378728000, 95153992000, 94784967000, 94002717000, 94457632000, 93638391000, 89106376000, 87742012000, 89078682000, 88955384000, 94953556000, 81361581000, 69621058000, 59294812000, 32886391000, 20582061000, 17943497000, 17333562000, 8945621200, 18464616000]),
  (1000000000000000000, [99844981000, 99866371000, 99801028000, 99570393000, 99509939000, 99476585000, 99605716000, 99721868000, 99641927000, 99614913000, 99417856000, 98903903000, 98281763000, 96617711000, 96079660000, 95901696000, 95886359000, 94662810000, 89646311000, 89794837000, 91686094000, 91026997000, 95176166000, 96624731000, 97098086000, 96634084000, 96854074000, 98831965000, 99300616000, 94245172000, 92163805000, 84131820000]),
  (-1000000000000000000, [99174961000, 99240896000, 98966725000, 97697244000, 97689406000, 97913475000, 98100016000, 98643577000, 98451996000, 98376241000, 97890402000, 97507433000, 97589612000, 97697394000, 98009957000, 97739144000, 97591845000, 97484863000, 94811022000, 94552592000, 95294499000, 94964988000, 97506409000, 98400928000, 98357190000, 87774577000, 63637630000, 63527533000, 47136295000, 26065176000, 12072347000, 24194847000]),
  (1000000000000000000, [99757029000, 99767817000, 99510575000, 98922313000, 99066154000, 98885125000, 98909097000, 99212127000, 98939011000, 98962286000, 98965040000, 98897542000, 98898070000, 98602034000, 98088749000, 97787767000, 97901943000, 97551838000, 94289720000, 94694019000, 96264794000, 96139776000, 98400769000, 98902152000, 98843367000, 98605000000, 95921539000, 94116758000, 97395787000, 94319839000, 92988754000, 89255969000]),
  (1000000000000000000, [99843180000, 99903075000, 99912468000, 99937431000, 99946972000, 99982812000, 99974621000, 99934743000, 99931420000, 99885330000, 99893017000, 99891630000, 99837233000, 99760127000, 99676784000, 99643971000, 99443562000, 99581060000, 99651786000, 99633262000, 99544463000, 99707822000, 99081723000, 98295358000, 97531766000, 98042382000, 97905938000, 87233699000, 84587289000, 74359975000, 61065423000, 55118910000])]

/-- `model/libsvm_nu_svr_model.txt:218-227`: coefficients in units of `10^-18`, vectors in units of `10^-11`. -/
def defaultVectors21 : List (Int × List Int) := [
  (-1000000000000000000, [89186229000, 96293907000, 97050060000, 96953807000, 95945351000, 97893540000, 95475681000, 87592582000, 88171835000, 88986471000, 94546887000, 95662807000, 93432631000, 96067176000, 97518873000, 96288837000, 97260152000, 97434504000, 98273114000, 96810621000, 97027680000, 97941923000, 96216048000, 90754533000, 58995375000, 32759344000, 29889198000, 25072911000, 24966208000, 27528811000, 27299456000, 31450168000]),
  (-1000000000000000000, [98078995000, 99236512000, 99637015000, 99832311000, 99863658000, 99923700000, 99761247000, 99764647000, 99772053000, 99708168000, 99725201000, 99628832000, 99378523000, 99208704000, 99489065000, 99424026000, 99422452000, 99503880000, 99442701000, 99504876000, 99501650000, 99507736000, 98680075000, 97747669000, 97231403000, 98374381000, 98779280000, 98545282000, 98754610000, 67411081000, 65199601000, 60080404000]),
  (1000000000000000000, [99864477000, 99907603000, 99856631000, 99890540000, 99898903000, 99955858000, 99926779000, 99832967000, 99699922000, 99768483000, 99823368000, 99842362000, 99804761000, 99587884000, 99834811000, 99806547000, 99805803000, 99817040000, 99756555000, 99769197000, 99653339000, 99665933000, 99261297000, 98615847000, 99113173000, 99214593000, 99371064000, 99401330000, 80448636000, 66286435000, 56615389000, 49121008000]),
  (1000000000000000000, [98570214000, 99320997000, 99565159000, 99679969000, 99716427000, 99876131000, 99776374000, 99207613000, 98563266000, 98090343000, 98312307000, 98358831000, 98175979000, 98924535000, 99605312000, 99343459000, 98901193000, 99623391000, 99701092000, 99707488000, 99666854000, 99768655000, 99570109000, 99123199000, 99262172000, 99514547000, 99641344000, 99311548000, 98856032000, 94918766000, 96038911000, 95674450000]),
  (-1000000000000000000, [95599967000, 97095109000, 97983892000, 98499242000, 96767684000, 94835016000, 94195828000, 94308050000, 93379581000, 93318153000, 91950827000, 93278168000, 95148830000, 95536020000, 95475788000, 94789328000, 95028730000, 95931832000, 96701106000, 97585711000, 97080675000, 96302288000, 95240803000, 78117033000, 51960693000, 33721308000, 10142098000, 6145485800, 8890899700, 9389234800, 4494407800, 7035689800]),
  (1000000000000000000, [97283643000, 98910981000, 99726191000, 99840920000, 99746084000, 99663945000, 99783779000, 99780409000, 99725884000, 99436985000, 98979011000, 98454095000, 98191843000, 97760293000, 97777424000, 97053771000, 98067461000, 98642176000, 98470366000, 98601105000, 98479200000, 98228426000, 96775595000, 96134217000, 97419103000, 97418387000, 97736357000, 97288010000, 96304020000, 87088106000, 85600920000, 72001763000]),
  (1000000000000000000, [98341531000, 99133157000, 99439632000, 99659989000, 99233694000, 98865054000, 98964600000, 98917299000, 98610985000, 98620782000, 98515763000, 98304966000, 98576519000, 98751293000, 98762269000, 98535947000, 98620128000, 98885716000, 98955606000, 99233804000, 99183990000, 99024011000, 98882584000, 98201261000, 98372347000, 84444252000, 26304920000, 17059166000, 21625987000, 15975350000, 8009720100, 10810989000]),
  (1000000000000000000, [97260982000, 98556700000, 99304284000, 99439517000, 99162229000, 98792655000, 99100573000, 99249096000, 99306181000, 99018510000, 98715177000, 98597045000, 98911671000, 99008656000, 98727136000, 98520399000, 98948481000, 99210234000, 99253042000, 99452356000, 99416920000, 99326829000, 99120866000, 98665908000, 99033404000, 99135110000, 98368013000, 94164892000, 90408664000, 87841990000, 88913745000, 91911178000]),
  (-1000000000000000000, [77904016000, 89722074000, 94242517000, 96003479000, 96810788000, 97675360000, 97148041000, 96916078000, 97333249000, 97084567000, 94396349000, 94271604000, 95227243000, 96330665000, 96996488000, 97674353000, 97364875000, 96003059000, 95827830000, 96732161000, 96277266000, 93576534000, 95105390000, 87007142000, 66679387000, 49294659000, 39015953000, 29203939000, 30721890000, 35487725000, 33895972000, 39286856000]),
  (-1000000000000000000, [97286937000, 99227899000, 99663583000, 99708492000, 99753241000, 99808961000, 99808031000, 99650104000, 99754538000, 99795196000, 99585088000, 99407198000, 99288936000, 99268674000, 98474208000, 98736863000, 98903145000, 98324458000, 98290442000, 99156883000, 99026086000, 96857967000, 97357976000, 97116268000, 98520703000, 98472954000, 98255961000, 97751003000, 98577865000, 89101162000, 84849326000, 82359032000])]

/-- `model/libsvm_nu_svr_model.txt:228-237`: coefficients in units of `10^-18`, vectors in units of `10^-11`. -/
def defaultVectors22 : List (Int × List Int) := [
  (-1000000000000000000, [93867829000, 97707821000, 98299092000, 98428788000, 99111750000, 99401244000, 99359469000, 99032891000, 99307003000, 99295268000, 98930623000, 98565016000, 98652291000, 99196267000, 99151715000, 99463668000, 99235330000, 98639212000, 98678441000, 99152012000, 99026943000, 98312766000, 98544669000, 98731669000, 98878259000, 97363617000, 83539939000, 65760086000, 43893640000, 44336117000, 40220277000, 46689624000]),
  (1000000000000000000, [98069357000, 99411597000, 99488146000, 99584199000, 99679304000, 99719693000, 99667831000, 99554395000, 99702913000, 99756345000, 99565332000, 99270349000, 99521862000, 99723936000, 99408707000, 99558111000, 99659849000, 99344014000, 99097276000, 99553497000, 99629981000, 99063699000, 99252665000, 99102784000, 99429908000, 99666343000, 99389643000, 97061806000, 96650452000, 93429599000, 92968437000, 94586454000]),
  (-1000000000000000000, [99827130000, 99903717000, 99906439000, 99939851000, 99914963000, 99804233000, 99807502000, 99864338000, 99877027000, 99828906000, 99792930000, 99689892000, 99529316000, 99179930000, 98720735000, 98087695000, 97380392000, 98285056000, 97896862000, 96852007000, 95822842000, 98448330000, 99296377000, 99563271000, 99283361000, 97556981000, 94176297000, 95706795000, 98395911000, 91059539000, 78071008000, 68042155000]),
  (-1000000000000000000, [96386193000, 97816090000, 97919831000, 97941469000, 95544785000, 90210786000, 88895018000, 92633965000, 95128433000, 96081144000, 96751087000, 96959348000, 97233908000, 96698602000, 95874192000, 96366597000, 95498740000, 97283208000, 97120489000, 95663218000, 93530872000, 97559137000, 98591748000, 95718461000, 80933620000, 68968613000, 22224842000, 12923253000, 15717682000, 16831387000, 5780023800, 7494461200]),
  (-1000000000000000000, [98499576000, 99128985000, 99233886000, 99262894000, 98307284000, 96578385000, 96698770000, 97568640000, 98176732000, 98635121000, 98836504000, 98613801000, 98755878000, 98702051000, 98400903000, 98343831000, 98025679000, 98769782000, 98512717000, 97991773000, 97101178000, 98847391000, 99321071000, 99546108000, 99292079000, 85135755000, 41026325000, 26745245000, 26651878000, 22593600000, 7774736800, 10239860000]),
  (-1000000000000000000, [99888952000, 99925471000, 99866054000, 99917897000, 99917286000, 99893176000, 99909861000, 99924385000, 99951975000, 99949539000, 99904225000, 99935122000, 99875186000, 99785055000, 99755219000, 99754422000, 99551738000, 99384915000, 99289308000, 99040826000, 99295777000, 99528081000, 99064491000, 98431585000, 97864367000, 98381005000, 98746741000, 98610986000, 99499598000, 99114932000, 94969705000, 92384465000]),
  (-1000000000000000000, [97438062000, 97630740000, 97837646000, 98634983000, 98229728000, 97436325000, 97914906000, 97318069000, 98790757000, 99046029000, 98127236000, 98311541000, 98716068000, 98805539000, 98887882000, 99099253000, 98472477000, 98215416000, 97955730000, 97423482000, 98292849000, 98687353000, 97371331000, 63246735000, 53312258000, 53263512000, 25653213000, 20697347000, 23402003000, 34505768000, 51850889000, 68625903000]),
  (-1000000000000000000, [99643309000, 99795855000, 99679984000, 99804686000, 99871400000, 99840239000, 99785669000, 99852059000, 99888641000, 99892313000, 99810543000, 99881805000, 99771809000, 99569246000, 99665933000, 99741584000, 99604925000, 99626100000, 99567551000, 99542020000, 99772250000, 99765679000, 99451526000, 98960079000, 98665500000, 99242472000, 99435714000, 99282301000, 99553647000, 99111991000, 96873019000, 95119599000]),
  (-1000000000000000000, [99794841000, 99857251000, 99898946000, 99939079000, 99925146000, 99873525000, 99896957000, 99897439000, 99904166000, 99939719000, 99886140000, 99929489000, 99887617000, 99870920000, 99877175000, 99912737000, 99831588000, 99797121000, 99725119000, 99597072000, 99747858000, 99806428000, 99509851000, 99004447000, 98844917000, 99219191000, 99383545000, 98935062000, 99307424000, 98802896000, 93937514000, 90975747000]),
  (-1000000000000000000, [99317299000, 99577127000, 99508454000, 99666450000, 99568165000, 99240256000, 99499116000, 99431944000, 99629786000, 99725429000, 99508861000, 99730761000, 99665562000, 99646585000, 99715472000, 99764263000, 99609567000, 99487774000, 99434411000, 99180342000, 99564382000, 99687594000, 99261304000, 98692528000, 98254948000, 88350284000, 80528623000, 65503973000, 33554591000, 40360420000, 59659218000, 79391570000])]

/-- `model/libsvm_nu_svr_model.txt:238-247`: coefficients in units of `10^-18`, vectors in units of `10^-11`. -/
def defaultVectors23 : List (Int × List Int) := [
  (-1000000000000000000, [99749863000, 99887758000, 99851083000, 99884472000, 99825858000, 99699563000, 99665769000, 99728010000, 99843398000, 99882760000, 99809077000, 99898054000, 99803022000, 99802897000, 99855331000, 99874363000, 99788396000, 99811502000, 99816057000, 99854357000, 99880228000, 99915314000, 99813803000, 99715902000, 99668118000, 99809419000, 99831340000, 99698232000, 99617223000, 98880186000, 96986232000, 94827224000]),
  (-1000000000000000000, [99292646000, 99397164000, 99396108000, 99586225000, 99831491000, 99919746000, 99931785000, 99952448000, 99976746000, 99928531000, 99983245000, 99949931000, 99954131000, 99730338000, 99031055000, 99240691000, 99446447000, 99566017000, 99295243000, 98849107000, 99321493000, 98905171000, 98606267000, 96571649000, 95346886000, 96304178000, 97571639000, 83947987000, 80651834000, 78824234000, 59193889000, 56849833000]),
  (-1000000000000000000, [75748832000, 77824570000, 85341473000, 90904990000, 94564103000, 97153160000, 97671699000, 98182762000, 98848073000, 99266397000, 99715144000, 99574962000, 99446367000, 98487018000, 98169662000, 97223136000, 96617035000, 96747890000, 96508249000, 96901822000, 98709588000, 98139500000, 96751931000, 84912828000, 50606810000, 14376498000, 13508725000, 23201925000, 25271433000, 23176150000, 16099049000, 18660025000]),
  (-1000000000000000000, [91725085000, 92281798000, 93943967000, 95828950000, 97453650000, 97848042000, 98313646000, 99189512000, 99592592000, 99441868000, 99859863000, 99817325000, 99722331000, 99401602000, 99266639000, 99099183000, 98761886000, 98822225000, 98635581000, 98560736000, 99479952000, 99302387000, 98788319000, 97282835000, 95402088000, 60146338000, 38469206000, 44404413000, 46301414000, 28563927000, 17645216000, 19814434000]),
  (1000000000000000000, [98477512000, 98937645000, 99303106000, 99351558000, 99723985000, 99823695000, 99795166000, 99498614000, 99918013000, 99851986000, 99976348000, 99946211000, 99911427000, 99678384000, 99062197000, 98893513000, 99237170000, 99420489000, 99464011000, 99398522000, 99597980000, 99372339000, 99079238000, 98351110000, 98244577000, 98573559000, 98725616000, 97437736000, 95762456000, 88103625000, 97179540000, 92663449000]),
  (1000000000000000000, [99904672000, 99897083000, 99870357000, 99837405000, 99840666000, 99841404000, 99614299000, 99366110000, 99688609000, 99551775000, 99532928000, 99647586000, 99485173000, 99490376000, 99079411000, 99249965000, 99253524000, 99401131000, 98903253000, 99059166000, 99371147000, 99083222000, 98373299000, 97690285000, 99116817000, 99362295000, 96996325000, 94113690000, 98521748000, 30263647000, 57720684000, 70488360000]),
  (-1000000000000000000, [96739129000, 95709615000, 94455929000, 93262443000, 90260951000, 88190458000, 84820580000, 84368984000, 87645858000, 86578840000, 89918604000, 91892250000, 91505614000, 91851482000, 90450318000, 93328871000, 94613751000, 93923698000, 91380571000, 92442190000, 95827329000, 94512975000, 93444380000, 52213727000, 14903871000, 5503020300, 4736262700, -4303548800, -6998154600, -4333010400, -6478821400, -10631101000]),
  (1000000000000000000, [99682596000, 99619483000, 99487835000, 99268492000, 98587163000, 98021766000, 97359987000, 96773117000, 97456326000, 96980660000, 97109516000, 97405988000, 97191085000, 96951004000, 96843961000, 98122666000, 98251474000, 98212453000, 96721721000, 97505844000, 98357378000, 96708252000, 95210737000, 96158525000, 98636927000, 98892165000, 97273522000, 98069978000, 43542460000, -8506517400, 24716443000, 48559374000]),
  (1000000000000000000, [98539698000, 98189471000, 97676703000, 96791238000, 95348391000, 94656206000, 91682564000, 91401578000, 93065870000, 93781236000, 95879910000, 97088971000, 97215336000, 96920098000, 96679173000, 97630202000, 97845074000, 98210312000, 97487097000, 97292868000, 98130394000, 97102192000, 97326132000, 96838768000, 98719017000, 82321097000, 13190199000, -18363114000, -17517765000, -9078123100, -6294050800, -9237455500]),
  (-1000000000000000000, [97602180000, 97922476000, 98305278000, 98315447000, 98502230000, 98644913000, 97699843000, 97816826000, 98618513000, 98086421000, 98210547000, 98458166000, 98540595000, 98590786000, 98461419000, 99011642000, 98984790000, 99308875000, 99014992000, 98923199000, 99343438000, 97386687000, 96080032000, 96403022000, 99244407000, 99139025000, 96542529000, 94989758000, 98746649000, 98640160000, 97939071000, 96918246000])]

/-- `model/libsvm_nu_svr_model.txt:248-257`: coefficients in units of `10^-18`, vectors in units of `10^-11`. -/
def defaultVectors24 : List (Int × List Int) := [
  (-1000000000000000000, [99507718000, 99829969000, 99926555000, 99958003000, 99922883000, 99883186000, 99899420000, 99931287000, 99916612000, 99849549000, 99800721000, 99677377000, 99487790000, 99416925000, 99264980000, 98651015000, 97637307000, 98216111000, 97586969000, 97410333000, 98266368000, 99044181000, 98777302000, 97744036000, 97052620000, 97998208000, 98913745000, 99300336000, 98626349000, 93774688000, 86452982000, 85313298000]),
  (-1000000000000000000, [72741820000, 85991650000, 95585669000, 98246648000, 96818899000, 96857785000, 98024211000, 98129645000, 98227576000, 97612580000, 96962227000, 96429214000, 96575600000, 97627840000, 97590759000, 96255707000, 94920592000, 96618629000, 96208631000, 95085917000, 96040547000, 97579424000, 96556982000, 75450507000, 16655237000, 17805411000, 27893746000, 26011294000, 33351757000, 42178315000, 48097837000, 57971126000]),
  (-1000000000000000000, [91964092000, 97953839000, 99642605000, 99893896000, 99842594000, 99727317000, 99783747000, 99825328000, 99712640000, 99515728000, 99491330000, 99118541000, 98564239000, 98574856000, 97839423000, 97971257000, 97277879000, 97748370000, 97445616000, 97277982000, 98108196000, 98526009000, 97845779000, 96243153000, 95852509000, 96037737000, 97291486000, 95527609000, 93619984000, 79877407000, 83576103000, 91431394000]),
  (-1000000000000000000, [89219023000, 96166089000, 98956485000, 99566337000, 99190606000, 99130036000, 99442225000, 99334857000, 99295613000, 99236908000, 99174365000, 98750240000, 98800635000, 99141703000, 99222474000, 98847421000, 98401267000, 98894112000, 98541673000, 98167940000, 98711339000, 99345923000, 99037617000, 98496831000, 97811812000, 89453564000, 86121248000, 76254155000, 58689062000, 54702291000, 58862674000, 69636193000]),
  (1000000000000000000, [96209393000, 98882885000, 99740077000, 99828016000, 99647441000, 99547445000, 99664198000, 99637452000, 99537652000, 99352606000, 99303460000, 99138116000, 99174762000, 99390651000, 99309826000, 99037561000, 98592498000, 98851357000, 98679286000, 98641056000, 99175990000, 99544045000, 99456386000, 99284801000, 98935504000, 98865424000, 98063383000, 93565120000, 64096972000, 17828558000, 49715923000, 75618324000]),
  (-1000000000000000000, [99894519000, 99945211000, 99916575000, 99885187000, 99892266000, 99895022000, 99911054000, 99930343000, 99903705000, 99877854000, 99820227000, 99732193000, 99773378000, 99680292000, 99251716000, 98406927000, 98050965000, 98168935000, 97349750000, 96412092000, 96943420000, 96684103000, 95923750000, 95208237000, 95341467000, 95467406000, 96001222000, 97555769000, 97365848000, 76686397000, 64426890000, 53780613000]),
  (-1000000000000000000, [95846651000, 98057294000, 97506838000, 96773621000, 97377815000, 98217782000, 98545036000, 98485441000, 98216660000, 97958706000, 97062497000, 97511617000, 98310536000, 97709116000, 96142072000, 95768787000, 95635071000, 96470660000, 95400276000, 94437738000, 94585489000, 93399836000, 93314767000, 66251798000, 30073484000, 32800027000, 31035672000, 14531234000, 9934703500, 5572458200, -8164611900, -9242136800]),
  (-1000000000000000000, [99291078000, 99796129000, 99745006000, 99660771000, 99752094000, 99790741000, 99863863000, 99868598000, 99788493000, 99718438000, 99544992000, 99416616000, 99489469000, 99081961000, 97883522000, 97872939000, 97955477000, 97937486000, 97618334000, 97652726000, 97460107000, 97196708000, 95696178000, 95901883000, 96787729000, 97556435000, 97712993000, 97886069000, 98448563000, 76967721000, 81271265000, 68891307000]),
  (1000000000000000000, [99710320000, 99887794000, 99836259000, 99731256000, 99714398000, 99784305000, 99682863000, 99776731000, 99662770000, 99662132000, 99468132000, 99244565000, 99623784000, 99639379000, 99304329000, 98962749000, 99026328000, 98923879000, 98718989000, 98365310000, 98190955000, 97649390000, 96506178000, 96549366000, 96264392000, 96771263000, 97148919000, 98289107000, 94182697000, 76757425000, 53461001000, 43530141000]),
  (-1000000000000000000, [98548533000, 99249690000, 98807079000, 98838914000, 99113524000, 99375801000, 99432363000, 99462525000, 99249927000, 99168289000, 98911690000, 99004022000, 99329660000, 99302512000, 98684512000, 98150339000, 98180801000, 98483009000, 97924670000, 97633184000, 97752993000, 97505077000, 96624673000, 96740333000, 96564313000, 77786792000, 57681910000, 56632959000, 40166939000, 15447404000, -6241934300, -7108803200])]

/-- `model/libsvm_nu_svr_model.txt:258-267`: coefficients in units of `10^-18`, vectors in units of `10^-11`. -/
def defaultVectors25 : List (Int × List Int) := [
  (1000000000000000000, [99927236000, 99959607000, 99976888000, 99975061000, 99951529000, 99908481000, 99956797000, 99956783000, 99931119000, 99870056000, 99883528000, 99904001000, 99785023000, 99529113000, 99407222000, 99079420000, 98902852000, 98316731000, 98190848000, 98168096000, 98294965000, 98917632000, 99179790000, 99320389000, 99133976000, 98454001000, 98633354000, 99041099000, 96313328000, 90816873000, 51714517000, 37213782000]),
  (1000000000000000000, [99318883000, 99747105000, 99904728000, 99932403000, 99790150000, 99680209000, 99826156000, 99878174000, 99813510000, 99807179000, 99816169000, 99882405000, 99820454000, 99786003000, 99630757000, 99749549000, 99738272000, 99558172000, 99504791000, 99509659000, 99520841000, 99514285000, 99616287000, 99635187000, 99614729000, 99262590000, 98852124000, 98937386000, 98318894000, 97939722000, 93352746000, 88224922000]),
  (1000000000000000000, [99944215000, 99966750000, 99979056000, 99975136000, 99946802000, 99918038000, 99966760000, 99973374000, 99957402000, 99924483000, 99936851000, 99941357000, 99873506000, 99763250000, 99513525000, 99584056000, 99333679000, 98831800000, 98800437000, 98861446000, 99053277000, 99358329000, 99381044000, 99573144000, 99531967000, 98947803000, 98910084000, 99278467000, 99612479000, 96204011000, 82513471000, 53125766000]),
  (1000000000000000000, [99448255000, 99732546000, 99911228000, 99948935000, 99862656000, 99760164000, 99848407000, 99881761000, 99849037000, 99866737000, 99893307000, 99926205000, 99896592000, 99853795000, 99811346000, 99800094000, 99786796000, 99710270000, 99637628000, 99663953000, 99717153000, 99759951000, 99764860000, 99704052000, 99726796000, 99538387000, 99476419000, 99352389000, 99635953000, 99735775000, 97644470000, 89884220000]),
  (1000000000000000000, [98360646000, 99174137000, 99251552000, 99246119000, 98478081000, 98434814000, 99243859000, 99311370000, 98754383000, 98424714000, 98484622000, 98619097000, 98052102000, 97172316000, 96876374000, 97167260000, 95914901000, 93906248000, 93045917000, 92932398000, 95318979000, 96789744000, 97248582000, 97980770000, 94005451000, 80879199000, 80225026000, 85336465000, 94107554000, 94040008000, 76277523000, 49623881000]),
  (1000000000000000000, [96319331000, 98679706000, 99587663000, 99750371000, 98713474000, 98072901000, 98917369000, 99263741000, 99025897000, 98833334000, 99010820000, 99389588000, 99188920000, 98883840000, 98659489000, 98690220000, 98445502000, 96731521000, 94734394000, 92323641000, 93732475000, 96418789000, 96283303000, 97228204000, 94012430000, 88239454000, 85494990000, 87001715000, 90132794000, 89837492000, 90082059000, 93489853000]),
  (1000000000000000000, [99407482000, 99655165000, 99777686000, 99682012000, 99252191000, 99305067000, 99658339000, 99658000000, 99399806000, 99138700000, 99269546000, 99362070000, 98896253000, 98367329000, 97483083000, 97981912000, 96732464000, 94465246000, 94557538000, 94743127000, 95356867000, 97719195000, 98335702000, 98047588000, 97083394000, 90759332000, 87995556000, 89739796000, 96009224000, 97097429000, 97760144000, 97393219000]),
  (1000000000000000000, [98037476000, 99051863000, 99639215000, 99774448000, 99116509000, 98736326000, 99487458000, 99470613000, 99371217000, 99480729000, 99396779000, 99657170000, 99478656000, 99224831000, 98996586000, 98728994000, 98923523000, 98111926000, 98118269000, 98160219000, 98166129000, 97452414000, 96871861000, 97520982000, 94432404000, 90119444000, 90943371000, 90868033000, 90159303000, 86628013000, 89520649000, 93579196000]),
  (1000000000000000000, [99944439000, 99971327000, 99993780000, 99988248000, 99991834000, 99998349000, 99999119000, 99999074000, 99998890000, 99998581000, 99997689000, 99996903000, 99995460000, 99994642000, 99994378000, 99993629000, 99989442000, 99935762000, 48570178000, 21004030000, 9749603700, 6362974200, 6370973600, 8536132100, 9663626100, 8301227000, 8262441200, 7408137900, 7923117300, 8576548500, 11503515000, 20110510000]),
  (1000000000000000000, [99872887000, 98682918000, 87952352000, 90707110000, 96043446000, 97999099000, 98550455000, 99487983000, 99743099000, 99819643000, 99874381000, 99940152000, 99950110000, 99895980000, 99960451000, 99916396000, 99398967000, 98988505000, 97589972000, 99250540000, 99822456000, 99895852000, 99825420000, 99558482000, 99765431000, 99564400000, 99243345000, 99528081000, 96239224000, 57737479000, 50196308000, 44495340000])]

/-- `model/libsvm_nu_svr_model.txt:268-277`: coefficients in units of `10^-18`, vectors in units of `10^-11`. -/
def defaultVectors26 : List (Int × List Int) := [
  (1000000000000000000, [99273736000, 97045057000, 83888105000, 93219145000, 97327304000, 98760311000, 99107322000, 99411747000, 99786963000, 99911952000, 99955219000, 99966266000, 99961759000, 99909110000, 99967596000, 99943745000, 99865767000, 99643905000, 99141510000, 99826274000, 99957579000, 99981989000, 99968030000, 99896251000, 99913593000, 99875250000, 99915281000, 99798383000, 98159888000, 91550308000, 86191967000, 84502930000]),
  (1000000000000000000, [99915887000, 99008606000, 90099123000, 92239376000, 96554554000, 98532807000, 99328219000, 99661541000, 99829486000, 99909449000, 99917827000, 99965071000, 99972522000, 99934001000, 99970686000, 99949901000, 99761948000, 99425575000, 99036096000, 99663377000, 99932066000, 99969310000, 99930755000, 99804841000, 99899640000, 99729101000, 99762235000, 99563708000, 99437320000, 63480254000, 68823554000, 56622701000]),
  (1000000000000000000, [99290653000, 97085004000, 83899430000, 93195250000, 97857013000, 99150770000, 99277873000, 99683310000, 99893359000, 99947361000, 99968408000, 99983553000, 99976789000, 99926568000, 99972874000, 99963478000, 99914602000, 99796956000, 99272943000, 99854659000, 99972394000, 99980068000, 99963542000, 99903458000, 99951256000, 99945881000, 99946410000, 99780906000, 99465806000, 99324339000, 99326226000, 98306464000]),
  (1000000000000000000, [98836758000, 89593840000, 60007824000, 71928749000, 83836970000, 88430391000, 93122245000, 94998337000, 97127447000, 98404291000, 98866478000, 99474363000, 99565319000, 99271996000, 99720001000, 99488230000, 96991336000, 93725249000, 86168789000, 95371819000, 98897812000, 99655024000, 98507074000, 94942229000, 95319026000, 88628206000, 79214131000, 75985107000, 81638166000, 52076068000, 61296833000, 51381092000]),
  (1000000000000000000, [98834564000, 94672183000, 68897415000, 82616959000, 91179639000, 95316604000, 96547083000, 97882142000, 99149911000, 99545424000, 99638092000, 99734011000, 99726625000, 99319904000, 99751760000, 99559958000, 98572595000, 94333725000, 85150529000, 87597641000, 95294333000, 98374106000, 97517670000, 91014221000, 91639633000, 79375516000, 79040279000, 75458506000, 66149918000, 59616044000, 79909013000, 88712202000]),
  (-1000000000000000000, [99474155000, 94915501000, 75734672000, 84691396000, 92760049000, 94633510000, 96687795000, 97948382000, 98661827000, 99398900000, 99485993000, 99770711000, 99821704000, 99621816000, 99890271000, 99675165000, 97733063000, 94110302000, 88569440000, 96204605000, 99222694000, 99735115000, 98948177000, 96846525000, 98757832000, 95697545000, 83884308000, 82286148000, 70453925000, 50956023000, 74263988000, 90232354000]),
  (1000000000000000000, [99151411000, 95859795000, 76937771000, 87067855000, 93327032000, 97237332000, 97743565000, 98773959000, 99368528000, 99696299000, 99809562000, 99892951000, 99834161000, 99580006000, 99828458000, 99722543000, 99234234000, 98668976000, 97007358000, 99130048000, 99731985000, 99787782000, 98290871000, 90991539000, 93459003000, 82470736000, 78857051000, 80046335000, 71086500000, 70956332000, 80028162000, 84316512000]),
  (1000000000000000000, [96206160000, 84374069000, 58510305000, 71465908000, 86948244000, 93028611000, 95853476000, 97741404000, 98676068000, 99007287000, 98868329000, 99646188000, 99857256000, 99906961000, 99895731000, 99764369000, 99278912000, 99047600000, 61375002000, -44276479000, -22943584000, 1303237900, 4389067400, 4974179800, 5085024600, 5522959800, 5567946500, 6791993800, 7846554600, 12523061000, 23006018000, 26537416000]),
  (42982076319407980, [99161904000, 99534650000, 99364458000, 99882007000, 99983076000, 99877930000, 99888822000, 99865784000, 99900632000, 99877769000, 99811430000, 99889903000, 99913946000, 99828437000, 99793383000, 99821483000, 99738448000, 99788216000, 99648034000, 99144612000, 99351125000, 99181576000, 99384232000, 99287985000, 99294078000, 99344942000, 99436011000, 99380990000, 99162914000, 98728388000, 97804140000, 98855698000]),
  (1000000000000000000, [97228722000, 98217236000, 98949003000, 99707356000, 99909825000, 99624104000, 99457275000, 99609733000, 99537682000, 99609901000, 99181070000, 99350724000, 99423086000, 99088324000, 98624734000, 99127712000, 99247271000, 99039221000, 97178157000, 89692838000, 88224651000, 91049781000, 94369719000, 94986312000, 93226718000, 89532844000, 87732091000, 93141838000, 95437371000, 95664025000, 94297061000, 95855042000])]

/-- `model/libsvm_nu_svr_model.txt:278-287`: coefficients in units of `10^-18`, vectors in units of `10^-11`. -/
def defaultVectors27 : List (Int × List Int) := [
  (-1000000000000000000, [99330612000, 99815936000, 99909090000, 99853454000, 99962221000, 99911264000, 99912544000, 99955728000, 99961357000, 99835978000, 99762006000, 99526312000, 99796212000, 99786852000, 99978556000, 99978348000, 99952551000, 99952856000, 96579463000, 86496547000, 83489571000, 86475528000, 89270397000, 87048129000, 85580658000, 88810547000, 91962577000, 92145078000, 91797226000, 91398682000, 95958062000, 99465508000]),
  (1000000000000000000, [99975670000, 99828065000, 98604038000, 97273839000, 97836787000, 97988958000, 98528185000, 99226203000, 99491179000, 99523195000, 99920548000, 99988027000, 99974325000, 99797060000, 99708589000, 99954852000, 99973497000, 99870947000, 99914491000, 99942203000, 99985099000, 99947585000, 99923976000, 99914629000, 99539289000, 99160121000, 99463640000, 99249348000, 98463370000, 73528188000, 78062490000, 88619333000]),
  (1000000000000000000, [89096338000, 81026108000, 55275225000, 51326316000, 49572726000, 54439572000, 86418298000, 94425932000, 94861391000, 97219154000, 99829027000, 99978445000, 99765358000, 98112380000, 99799740000, 99930650000, 99971112000, 99855028000, 99946487000, 99953919000, 99989487000, 99953536000, 99729556000, 99632326000, 98724008000, 97797168000, 98610099000, 97321050000, 95935767000, 92153300000, 93118926000, 95085605000]),
  (1000000000000000000, [99977357000, 99875558000, 98995846000, 98075622000, 98265457000, 98148807000, 98464112000, 99401095000, 99484848000, 99725070000, 99940314000, 99992513000, 99984955000, 99906779000, 99860798000, 99950865000, 99977370000, 99946979000, 99966653000, 99975067000, 99990749000, 99973576000, 99886634000, 99937803000, 99748445000, 99726517000, 99742451000, 99287847000, 99417859000, 77889365000, 88799333000, 94428472000]),
  (1000000000000000000, [88911187000, 81031788000, 55396999000, 51400108000, 49868461000, 54611882000, 86404231000, 94642100000, 95098402000, 97429135000, 99842110000, 99978576000, 99762557000, 98083087000, 99803838000, 99939741000, 99975892000, 99920830000, 99944666000, 99960709000, 99994748000, 99962617000, 99758548000, 99521466000, 98814873000, 97927738000, 98417557000, 97118445000, 96492493000, 96596810000, 96837193000, 95947408000]),
  (1000000000000000000, [99748189000, 99012157000, 96326779000, 95259441000, 95038643000, 94214240000, 96760450000, 98526666000, 98080694000, 99361217000, 99737867000, 99955284000, 99905240000, 99084273000, 98658786000, 98885058000, 99919631000, 99772701000, 99828178000, 99920498000, 99982604000, 99918790000, 99824912000, 99723321000, 97779782000, 95627251000, 91727338000, 88569222000, 86525201000, 69755794000, 85339005000, 93481594000]),
  (387371883912798420, [89057410000, 81515012000, 55696098000, 50273901000, 47205014000, 50525674000, 81596129000, 89429140000, 91448989000, 93738515000, 99005317000, 99829645000, 99459533000, 97423386000, 98385782000, 99525385000, 99792044000, 90713302000, 94007495000, 94054230000, 97382858000, 85783005000, 87801184000, 87883482000, 83378238000, 82415298000, 87666067000, 85353935000, 66149631000, 70938141000, 89956996000, 92816578000]),
  (1000000000000000000, [99739958000, 98966796000, 96676240000, 95865142000, 96469149000, 97141220000, 98440415000, 99065602000, 99156035000, 99423158000, 99910129000, 99980533000, 99943481000, 99088529000, 98669156000, 98948770000, 99830752000, 99871203000, 99884291000, 99871859000, 99967130000, 99881177000, 99514699000, 99561503000, 98938701000, 96491278000, 95133792000, 93156103000, 89711908000, 94276180000, 97624109000, 99475945000]),
  (1000000000000000000, [89227575000, 81104886000, 55079331000, 51137210000, 49477748000, 53347405000, 85159672000, 93382455000, 94438186000, 96939870000, 99675010000, 99945396000, 99716805000, 97967609000, 99530974000, 99763344000, 99932391000, 99668699000, 99756109000, 99841010000, 99943375000, 87058322000, 88119549000, 87798285000, 83237041000, 84962753000, 91169625000, 86188508000, 70296753000, 78718625000, 93663052000, 94318693000]),
  (-1000000000000000000, [96130422000, 91668960000, 82481094000, 73371888000, 63839163000, 56174476000, 65894668000, 75918564000, 79286653000, 82335293000, 93171179000, 98040095000, 96473604000, 90040928000, 95247228000, 97897618000, 98434376000, 82758974000, 69811544000, 29754599000, -2628543600, 24708426000, 27143241000, 19585693000, 19467628000, 31498819000, 37810792000, 43616953000, 49076410000, 53415272000, 53911383000, 52971407000])]

/-- `model/libsvm_nu_svr_model.txt:288-297`: coefficients in units of `10^-18`, vectors in units of `10^-11`. -/
def defaultVectors28 : List (Int × List Int) := [
  (1000000000000000000, [99966602000, 99976285000, 99979306000, 99986513000, 99986102000, 99986492000, 99986773000, 99978272000, 99936293000, 99958323000, 99938962000, 99909029000, 99838514000, 99666449000, 99587879000, 99539353000, 99522851000, 99509404000, 99606390000, 99140420000, 98965175000, 99428795000, 99301842000, 99152134000, 99027934000, 98776420000, 98785452000, 99282210000, 98101591000, 91479525000, 70155613000, 74943590000]),
  (1000000000000000000, [99976980000, 99981523000, 99984240000, 99990625000, 99989199000, 99987676000, 99988362000, 99985742000, 99964940000, 99978868000, 99972694000, 99941680000, 99901015000, 99834548000, 99803536000, 99740749000, 99709273000, 99708546000, 99746990000, 99518134000, 99696158000, 99713175000, 99602182000, 99480852000, 99469373000, 99484684000, 99412081000, 99650160000, 99651519000, 95357914000, 84194548000, 84173283000]),
  (1000000000000000000, [99649104000, 99771773000, 99854687000, 99928515000, 99919933000, 99896230000, 99887969000, 99837686000, 99779066000, 99771150000, 99697126000, 99503100000, 99440151000, 98932361000, 99000592000, 98563152000, 98364908000, 99037910000, 99025360000, 97957864000, 98563211000, 98943029000, 98454436000, 98062544000, 96887431000, 93184130000, 88390863000, 92332225000, 94738572000, 94474222000, 94570839000, 93898182000]),
  (-1000000000000000000, [99398169000, 99719276000, 99979835000, 99993411000, 99990752000, 99992076000, 99992361000, 99990173000, 99982673000, 99977161000, 99981872000, 99968435000, 99964980000, 99985556000, 99980448000, 99977723000, 99979913000, 99900919000, 63602972000, 34620752000, 26319371000, 17670321000, 18980425000, 22860571000, 28649406000, 30697193000, 28703855000, 31403155000, 38912759000, 47277135000, 53797763000, 67215723000]),
  (-1000000000000000000, [100000000000, 100000000000, 100000000000, 100000000000, 100000000000, 100000000000, 100000000000, 100000000000, 100000000000, 100000000000, 100000000000, 100000000000, 100000000000, 100000000000, 100000000000, 100000000000, 100000000000, 100000000000, 100000000000, 100000000000, 100000000000, 100000000000, 100000000000, 100000000000, 100000000000, 100000000000, 100000000000, 100000000000, 100000000000, 100000000000, 100000000000, 100000000000]),
  (1000000000000000000, [99947393000, 99958170000, 99886185000, 99935446000, 99974281000, 99983022000, 99963363000, 99981577000, 99986222000, 99982881000, 99969347000, 99803744000, 99947342000, 99796515000, 99689479000, 99400412000, 99321775000, 99507977000, 99643489000, 99657660000, 99425287000, 99308310000, 99621693000, 99608148000, 99380462000, 99347133000, 99527173000, 99385386000, 96054223000, 86714608000, 72185510000, 73580369000]),
  (1000000000000000000, [99940305000, 99968260000, 99927268000, 99957052000, 99980132000, 99982258000, 99968771000, 99986275000, 99991188000, 99989380000, 99985861000, 99900732000, 99929880000, 99872006000, 99840024000, 99494968000, 99583918000, 99577869000, 99745098000, 99785741000, 99608854000, 99483468000, 99699900000, 99685987000, 99674763000, 99643644000, 99716339000, 99707709000, 99495523000, 90754076000, 88294790000, 86405605000]),
  (1000000000000000000, [99309615000, 99383081000, 98441157000, 99058447000, 99711587000, 99775132000, 99562444000, 99780112000, 99839168000, 99841367000, 99829456000, 99367693000, 99607710000, 99265422000, 99019823000, 97857664000, 97584086000, 98109149000, 98545379000, 99002639000, 98605003000, 98221358000, 98726366000, 98496178000, 93778029000, 87180324000, 82871632000, 78580719000, 82730743000, 80179018000, 84191268000, 81893592000]),
  (-1000000000000000000, [98168945000, 98908761000, 95950727000, 95468303000, 96999241000, 98275260000, 97938294000, 98910894000, 99454866000, 99594028000, 99448246000, 97006807000, 99295986000, 98641962000, 98058901000, 95262247000, 95831961000, 87621483000, 81547530000, 74797438000, 67690579000, 63524505000, 75242325000, 79676548000, 76474039000, 72279834000, 67920727000, 65146387000, 72419962000, 76270524000, 85122952000, 82663443000]),
  (1000000000000000000, [99952339000, 99968975000, 99955796000, 99933931000, 99935413000, 99954270000, 99977896000, 99974168000, 99955309000, 99928678000, 99909609000, 99792394000, 99724497000, 99631046000, 99480181000, 99584669000, 99596852000, 99624690000, 99355945000, 99375505000, 99633833000, 99531296000, 99303574000, 99397477000, 99540581000, 99350730000, 99366426000, 99082970000, 90023252000, 80990198000, 54641012000, 59488498000])]

/-- `model/libsvm_nu_svr_model.txt:298-307`: coefficients in units of `10^-18`, vectors in units of `10^-11`. -/
def defaultVectors29 : List (Int × List Int) := [
  (1000000000000000000, [99529993000, 99776367000, 99723816000, 99630015000, 99659383000, 99698059000, 99887655000, 99886218000, 99789852000, 99810193000, 99840588000, 99777948000, 99638419000, 99729966000, 99680243000, 99687636000, 99803932000, 99832771000, 99706834000, 99807858000, 99894459000, 99841244000, 99823972000, 99845170000, 99870462000, 99851402000, 99782782000, 99511169000, 97724159000, 94557989000, 95634381000, 94208622000]),
  (351220951962484600, [99627623000, 99815244000, 99836572000, 99787915000, 99737158000, 99767172000, 99920396000, 99910990000, 99881772000, 99857964000, 99880703000, 99815657000, 99814925000, 99832686000, 99819831000, 99828268000, 99843644000, 99876524000, 99821195000, 99863559000, 99936346000, 99925498000, 99897108000, 99899790000, 99903815000, 99870500000, 99762902000, 99729299000, 99574012000, 99226656000, 99200031000, 97530530000]),
  (1000000000000000000, [98897805000, 99396760000, 99249456000, 98995724000, 98824408000, 98814383000, 99272840000, 99247138000, 98921544000, 98911096000, 99134666000, 98423135000, 98098674000, 97902067000, 97548271000, 97531790000, 97596122000, 97825742000, 96693665000, 97752093000, 98593072000, 98165861000, 97623996000, 97737228000, 97051147000, 94837912000, 90423196000, 90072273000, 86580523000, 77668527000, 63404124000, 66608613000]),
  (1000000000000000000, [98038873000, 98965998000, 98860340000, 98438068000, 98603676000, 98751481000, 99488367000, 99371821000, 99083825000, 99182750000, 99263371000, 98865079000, 98097564000, 98769248000, 98650819000, 98411037000, 98424957000, 98745273000, 98099045000, 98600232000, 99124786000, 98721863000, 98749212000, 98594372000, 98603915000, 97488219000, 95509088000, 93500978000, 83472223000, 78559051000, 87088412000, 83385675000]),
  (1000000000000000000, [99572495000, 99637254000, 99537115000, 99514632000, 99521145000, 99572012000, 99724543000, 99702170000, 99563383000, 99467291000, 99377653000, 99067556000, 98846962000, 98767567000, 98485824000, 98368235000, 98574668000, 98755321000, 98242515000, 98398301000, 98967229000, 98693605000, 98047617000, 97511442000, 97853925000, 96298822000, 94785257000, 93692641000, 86376602000, 82016882000, 87676899000, 92003863000]),
  (1000000000000000000, [98463094000, 99195738000, 99212828000, 98959751000, 98976996000, 99138170000, 99612240000, 99516337000, 99408902000, 99327735000, 99391037000, 99303325000, 98972243000, 99253127000, 99040140000, 98979502000, 99299524000, 99297849000, 98588285000, 99292637000, 99587032000, 99180950000, 98999620000, 99140908000, 99134850000, 98841384000, 97979029000, 96722384000, 90383839000, 85836109000, 90587132000, 87499459000]),
  (1000000000000000000, [99957878000, 99984198000, 99960650000, 99946146000, 99905383000, 99895026000, 99889067000, 99901318000, 99894610000, 99628813000, 99000276000, 99167941000, 99342648000, 99579746000, 98991735000, 98506107000, 98572137000, 97885199000, 99442186000, 99619799000, 99162551000, 99409645000, 99234511000, 99046431000, 98434009000, 97286214000, 97854297000, 97505808000, 85204722000, 71528457000, 63451892000, 60240442000]),
  (1000000000000000000, [99324563000, 99810933000, 99754639000, 99699329000, 99460661000, 99214466000, 99470220000, 99615257000, 99691552000, 99456809000, 99519773000, 99355819000, 99675011000, 99665836000, 99340052000, 99186684000, 99063698000, 98219088000, 99656070000, 99680478000, 99686318000, 99730018000, 99696755000, 99555459000, 99375538000, 98318096000, 98141681000, 97031194000, 92637982000, 86209719000, 87384891000, 91221842000]),
  (1000000000000000000, [99957686000, 99984814000, 99961113000, 99946455000, 99911441000, 99899475000, 99904791000, 99849324000, 99786190000, 99782342000, 99629707000, 99603768000, 99711722000, 99704773000, 99490955000, 99201904000, 99213874000, 98671555000, 99650847000, 99609990000, 99524073000, 99703772000, 99616941000, 99357308000, 99237192000, 98795072000, 98834801000, 98894036000, 98206589000, 73726162000, 75602154000, 75694714000]),
  (1000000000000000000, [99570735000, 99870146000, 99804607000, 99743218000, 99592732000, 99547118000, 99640790000, 99739028000, 99765401000, 99610237000, 99585228000, 99515148000, 99698851000, 99768057000, 99546317000, 99274905000, 99234575000, 98826989000, 99785925000, 99810012000, 99748715000, 99857215000, 99802472000, 99726975000, 99564415000, 98735439000, 98773247000, 98313917000, 97581857000, 97255218000, 95667509000, 94035993000])]

/-- `model/libsvm_nu_svr_model.txt:308-317`: coefficients in units of `10^-18`, vectors in units of `10^-11`. -/
def defaultVectors30 : List (Int × List Int) := [
  (1000000000000000000, [99055554000, 99625548000, 98806506000, 98515279000, 97521402000, 97185651000, 97432559000, 98079737000, 97837831000, 96140814000, 94460953000, 94227315000, 96536473000, 97669902000, 95646859000, 95081989000, 94810806000, 89309837000, 97402418000, 97369779000, 96941841000, 97961548000, 97297266000, 96504370000, 91035896000, 83579341000, 77516100000, 71559849000, 71067724000, 65729589000, 63021821000, 60135704000]),
  (1000000000000000000, [97259863000, 99221331000, 98982401000, 98698532000, 97401445000, 97137974000, 97609254000, 98438913000, 98553431000, 97541854000, 97560249000, 96721685000, 98217959000, 98401270000, 97347967000, 96921064000, 96566958000, 90964108000, 96802555000, 97750017000, 97253537000, 99228039000, 99024841000, 98188565000, 96869207000, 92786837000, 88031573000, 81576724000, 83005571000, 83532988000, 84267357000, 85659597000]),
  (1000000000000000000, [99461072000, 99785445000, 99485404000, 99360410000, 98889955000, 98491940000, 99038514000, 99158340000, 98867644000, 97902559000, 97416326000, 97019972000, 98564252000, 98890974000, 98443648000, 98081003000, 97516961000, 95375548000, 98527476000, 98377637000, 98156499000, 98503928000, 98163611000, 97634095000, 95956537000, 91025745000, 89510936000, 83328040000, 83915301000, 85931922000, 89169100000, 84709915000]),
  (1000000000000000000, [98328318000, 99455127000, 99283874000, 98929693000, 98009107000, 97155331000, 98062744000, 98500671000, 98836277000, 97959885000, 98214185000, 97573281000, 98558853000, 98623001000, 97406559000, 97057573000, 97143753000, 93882144000, 98611789000, 98874895000, 98445282000, 98627236000, 98214894000, 98278150000, 97799404000, 94784263000, 93882106000, 90081891000, 86267862000, 84369803000, 84682438000, 86462931000]),
  (-1000000000000000000, [99932472000, 99977033000, 99999040000, 99999309000, 99998695000, 99997665000, 99998054000, 99998395000, 99998555000, 99998358000, 99998698000, 99999146000, 99999278000, 99999336000, 99998921000, 99998429000, 99998067000, 99982245000, 96145573000, 66504898000, 45705003000, 41527210000, 26967233000, 19859057000, 24942209000, 35118303000, 39254124000, 43446635000, 48141282000, 46449226000, 39335271000, 42403625000]),
  (1000000000000000000, [99896934000, 99931507000, 99922122000, 99915591000, 99925479000, 99931806000, 99953854000, 99959800000, 99954903000, 99943337000, 99947408000, 99894673000, 99879499000, 99887888000, 99872129000, 99826997000, 99878658000, 99740876000, 99740996000, 99706075000, 99474042000, 99427204000, 99378362000, 99073210000, 99264555000, 99098177000, 99476418000, 99436744000, 96570193000, 90906546000, 58675692000, 55555927000]),
  (1000000000000000000, [99897628000, 99944264000, 99938297000, 99930993000, 99938390000, 99945481000, 99970778000, 99972833000, 99969678000, 99967826000, 99973659000, 99937478000, 99939043000, 99935594000, 99925636000, 99859664000, 99929272000, 99827294000, 99846399000, 99844498000, 99723724000, 99585018000, 99500415000, 99504050000, 99599055000, 99586946000, 99734404000, 99644664000, 99569402000, 89545183000, 72820394000, 73592354000]),
  (1000000000000000000, [99424861000, 99737601000, 99721302000, 99662905000, 99624962000, 99685409000, 99786971000, 99821354000, 99831389000, 99797882000, 99893758000, 99853641000, 99811230000, 99831753000, 99878232000, 99893671000, 99910416000, 99820116000, 99858711000, 99885495000, 99773987000, 99810378000, 99794665000, 99774508000, 99778837000, 99744951000, 99872800000, 99833145000, 99896271000, 99789298000, 99555815000, 98807235000]),
  (1000000000000000000, [97498887000, 98999034000, 99031384000, 98721207000, 98826245000, 99006272000, 99400630000, 99487187000, 99363147000, 99344403000, 99573428000, 99186012000, 99159132000, 99239359000, 99215815000, 99134703000, 99306069000, 98594518000, 98771456000, 98828139000, 97438121000, 98022172000, 97003026000, 96050841000, 92791033000, 81114735000, 79238591000, 83253951000, 94807104000, 87419623000, 74240993000, 73691551000]),
  (1000000000000000000, [99116887000, 99543668000, 99546671000, 99348534000, 99316638000, 99471309000, 99676669000, 99678119000, 99539202000, 99641833000, 99737365000, 99500749000, 99586410000, 99550614000, 99402560000, 99374221000, 99645335000, 99211989000, 99128892000, 99297975000, 97956448000, 98426033000, 98212467000, 97580577000, 97598739000, 92584677000, 90146624000, 92682604000, 96827255000, 95986479000, 97748849000, 96666752000])]

/-- `model/libsvm_nu_svr_model.txt:318-324`: coefficients in units of `10^-18`, vectors in units of `10^-11`. -/
def defaultVectors31 : List (Int × List Int) := [
  (1000000000000000000, [97583440000, 98675383000, 98810896000, 98645144000, 98474107000, 98599184000, 99123923000, 99295419000, 99231713000, 99119762000, 99469617000, 99074676000, 99105899000, 99144556000, 99323601000, 99215907000, 99308886000, 99046630000, 99273773000, 99248419000, 98540299000, 97337756000, 96027219000, 97875829000, 98292215000, 97781178000, 98452440000, 98054989000, 97199647000, 91864091000, 94086463000, 95511736000]),
  (1000000000000000000, [99648907000, 99896617000, 99954970000, 99987504000, 99992063000, 99983720000, 99986667000, 99987390000, 99960272000, 99837529000, 99767608000, 99723623000, 99623043000, 99620869000, 99857312000, 99856380000, 99851218000, 99843245000, 99880414000, 99878513000, 99840697000, 99847611000, 99901139000, 99708962000, 99922143000, 99931333000, 99881735000, 99942319000, 95429317000, 76845126000, 40939317000, 34502647000]),
  (1000000000000000000, [99743859000, 99923085000, 99958175000, 99984304000, 99993091000, 99984348000, 99985692000, 99988490000, 99966420000, 99916577000, 99887901000, 99871761000, 99832920000, 99706947000, 99930118000, 99942005000, 99901963000, 99893133000, 99926488000, 99917439000, 99890851000, 99896562000, 99944182000, 99891151000, 99949038000, 99951290000, 99922278000, 99945731000, 99844307000, 84029230000, 70212915000, 58403712000]),
  (1000000000000000000, [96702143000, 98937137000, 99124820000, 99588020000, 99633944000, 99790741000, 99747084000, 99685945000, 99318843000, 98801387000, 98811090000, 98986373000, 98812111000, 98350923000, 99370340000, 99570568000, 99235956000, 99424862000, 99623377000, 99526495000, 99462778000, 99562790000, 99706388000, 99189866000, 94550758000, 80942510000, 72209334000, 82178015000, 85942630000, 76977391000, 59740296000, 50662057000]),
  (1000000000000000000, [68103978000, 88839207000, 96671951000, 98649857000, 99616078000, 99761296000, 99477221000, 99183960000, 99116167000, 98694496000, 97983619000, 98053398000, 97682702000, 96667804000, 98626891000, 98782867000, 98657317000, 98498523000, 99036308000, 98413727000, 98279416000, 98006217000, 98307727000, 97429347000, 98013779000, 98600678000, 98121480000, 96084032000, 93838481000, 85002208000, 90117335000, 90021222000]),
  (1000000000000000000, [97177522000, 98971407000, 98619032000, 99464976000, 99732479000, 99839477000, 99723025000, 99724807000, 99573439000, 99153521000, 98623122000, 98762851000, 98524613000, 97755041000, 99440584000, 99611155000, 99437453000, 99550723000, 99629223000, 99620749000, 99664020000, 99736389000, 99789926000, 99620916000, 99564694000, 98383562000, 94479477000, 94679245000, 88001050000, 84100421000, 94381779000, 95668874000]),
  (1000000000000000000, [92188178000, 97824544000, 99250762000, 99648566000, 99840037000, 99893452000, 99870302000, 99854370000, 99917586000, 99860918000, 99811443000, 99727202000, 99733429000, 99661740000, 99920358000, 99955895000, 99963720000, 99937434000, 84113934000, 23450463000, -15405851000, 788303970, 4585819900, 6125124300, 1250314400, -882005360, 2297469900, 2706788200, 4448393400, 6360291300, 3995082600, 12987676000])]

/-- `model/libsvm_nu_svr_model.txt:8-324`. -/
def defaultVectors : List (Int × List Int) :=
  defaultVectors0 ++ defaultVectors1 ++ defaultVectors2 ++ defaultVectors3 ++ defaultVectors4 ++ defaultVectors5 ++ defaultVectors6 ++ defaultVectors7 ++ defaultVectors8 ++ defaultVectors9 ++ defaultVectors10 ++ defaultVectors11 ++ defaultVectors12 ++ defaultVectors13 ++ defaultVectors14 ++ defaultVectors15 ++ defaultVectors16 ++ defaultVectors17 ++ defaultVectors18 ++ defaultVectors19 ++ defaultVectors20 ++ defaultVectors21 ++ defaultVectors22 ++ defaultVectors23 ++ defaultVectors24 ++ defaultVectors25 ++ defaultVectors26 ++ defaultVectors27 ++ defaultVectors28 ++ defaultVectors29 ++ defaultVectors30 ++ defaultVectors31

end Visqol
