import Verif.Model.DefaultSvr

/-! # The default model by columns, as distances from perfect similarity -/

namespace Visqol.Svr

def col0 : List Nat := [
  0, 72765000, 842609000, 6520806000, 45359000, 1639354000, 592518000, 5336379000, 55733000, 41132000, 0, 127115000,
  803521000, 5422165000, 1163161000, 525831000, 3793391000, 2663525000, 0, 11531961000, 36994000, 818572000, 818670000, 24331000,
  1131636000, 251843000, 260041000, 947471000, 1391807000, 33090000, 472492000, 833069000, 831271000, 0, 52300000, 1030042000,
  3673811000, 690306000, 481382000, 3536754000, 2051628000, 281821000, 5815360000, 24163000, 896956000, 799599000, 321865000, 337256000,
  211103000, 4171543000, 6256307000, 47935000, 2020373000, 1608080000, 2069307000, 69756000, 4167522000, 1102224000, 465575000, 579596000,
  1250158000, 1263593000, 30600000, 223762000, 603308000, 1933827000, 14122000, 102948000, 912110000, 2501069000, 883099000, 5347828000,
  838313000, 351101000, 32768506000, 5677598000, 159674000, 3297884000, 2822477000, 8497698000, 7814128000, 7575321000, 196850000, 13871792000,
  992088000, 665793000, 2655156000, 1049986000, 345660000, 16494725000, 6024380000, 3818446000, 20010924000, 2904320000, 681337000, 7959240000,
  35918919000, 9064538000, 2732569000, 3127828000, 340055000, 869298000, 536490000, 45651000, 4462670000, 729804000, 755559000, 9578164000,
  2343266000, 841094000, 84849000, 1743080000, 744011000, 38660000, 299269000, 585326000, 80573000, 2531200000, 1018221000, 178809000,
  936226000, 686163000, 141984000, 10049474000, 1414185000, 70036000, 4058151000, 3459170000, 280168000, 722052000, 47045000, 1901845000,
  218697000, 264573000, 359291000, 2802228000, 497059000, 282637000, 24226313000, 6620223000, 7947863000, 3103144000, 97067000, 2922703000,
  735118000, 8219127000, 625246000, 789178000, 948086000, 174170000, 7207483000, 962874000, 1178889000, 1312412000, 91754000, 3037321000,
  563225000, 911851000, 458732000, 3398505000, 675597000, 693405000, 12893952000, 4822507000, 3822912000, 1569681000, 64473000, 170154000,
  5977956000, 2175021000, 871163000, 1672456000, 583828000, 458969000, 5676480000, 810285000, 883559000, 1830716000, 497947000, 21484055000,
  5568243000, 4020481000, 7048101000, 1656297000, 248379000, 2040100000, 5708477000, 742959000, 728949000, 1396698000, 873578000, 586233000,
  15718922000, 1656548000, 1986191000, 4832960000, 47208000, 847065000, 295171000, 192436000, 1291082000, 20981000, 402075000, 191793000,
  89664000, 2494316000, 155019000, 825039000, 242971000, 156820000, 10813771000, 1921005000, 135523000, 1429786000, 4400033000, 2716357000,
  1658469000, 2739018000, 22095984000, 2713063000, 6132171000, 1930643000, 172870000, 3613807000, 1500424000, 111048000, 2561938000, 356691000,
  205159000, 682701000, 250137000, 707354000, 24251168000, 8274915000, 1522488000, 95328000, 3260871000, 317404000, 1460302000, 2397820000,
  492282000, 27258180000, 8035908000, 10780977000, 3790607000, 105481000, 4153349000, 708922000, 289680000, 1451467000, 72764000, 681117000,
  55785000, 551745000, 1639354000, 3680669000, 592518000, 1962524000, 55561000, 127113000, 726264000, 84113000, 709347000, 1163242000,
  1165436000, 525845000, 848589000, 3793840000, 838096000, 2771278000, 669388000, 24330000, 10903662000, 22643000, 11088813000, 251811000,
  10942590000, 260042000, 10772425000, 3869578000, 33398000, 23020000, 350896000, 601831000, 0, 52607000, 59695000, 690385000,
  1831055000, 47661000, 470007000, 372377000, 1102195000, 1961127000, 427505000, 1536906000, 42122000, 675437000, 42314000, 429265000,
  944446000, 2740137000, 538928000, 1671682000, 67528000, 103066000, 102372000, 575139000, 2501113000, 883113000, 2416560000, 351093000,
  256141000, 3297857000, 31896022000, 2822478000, 7811822000]

def col1 : List Nat := [
  0, 40393000, 355559000, 3814111000, 25181000, 825853000, 344834000, 2729543000, 28958000, 18969000, 0, 1317110000,
  3290039000, 13105654000, 10406119000, 5084491000, 15606153000, 10929648000, 0, 7456327000, 14055000, 252313000, 252384000, 171937000,
  2514078000, 987945000, 1033243000, 2973983000, 3023451000, 23606000, 435000000, 348993000, 348188000, 0, 41608000, 763690000,
  3425884000, 616748000, 383666000, 1750511000, 707294000, 75105000, 2984013000, 10168000, 510210000, 309182000, 109420000, 117899000,
  236601000, 3057432000, 5155958000, 65373000, 2511611000, 1797200000, 1380547000, 90077000, 3210070000, 1188524000, 592563000, 1095711000,
  877566000, 881748000, 12696000, 87874000, 285537000, 870126000, 4890000, 68432000, 352433000, 1000814000, 456298000, 2889840000,
  265331000, 103383000, 10999213000, 2463968000, 42204000, 1062893000, 1028601000, 2626887000, 2175582000, 2041109000, 95334000, 9784576000,
  614577000, 459792000, 2207657000, 465221000, 205339000, 10663586000, 2447676000, 2448174000, 11489198000, 797978000, 452527000, 3702120000,
  27031032000, 7437254000, 1381216000, 1661311000, 168448000, 402102000, 226782000, 30170000, 2065813000, 497254000, 290491000, 1680445000,
  520379000, 158054000, 18642000, 876085000, 168891000, 12142000, 114287000, 131125000, 29395000, 1756080000, 386024000, 87758000,
  578046000, 219445000, 36111000, 2637845000, 317565000, 28271000, 795173000, 3577543000, 427307000, 911500000, 10814000, 524844000,
  40196000, 74012000, 58550000, 4237824000, 839135000, 69810000, 9955150000, 1596044000, 2409787000, 659502000, 33136000, 1765585000,
  398548000, 2150861000, 139117000, 326335000, 214583000, 86675000, 4155937000, 371226000, 597841000, 565359000, 75098000, 2610621000,
  247912000, 907779000, 321731000, 2226605000, 205889000, 274109000, 8340185000, 1531478000, 2434506000, 2265128000, 70766000, 53875000,
  2295134000, 703134000, 291602000, 1329894000, 553351000, 266918000, 4682365000, 388292000, 585200000, 1484064000, 119337000, 5292152000,
  474264000, 1066623000, 7307588000, 931393000, 243160000, 1462922000, 4297853000, 329530000, 363497000, 1005310000, 535013000, 197062000,
  6821520000, 584672000, 835270000, 1656391000, 8672000, 435941000, 59341000, 78402000, 1181915000, 13454000, 334402000, 99239000,
  81962000, 2344888000, 133629000, 759104000, 232183000, 96925000, 3706093000, 763488000, 92397000, 679003000, 2904891000, 1089019000,
  866843000, 1443300000, 10277926000, 772101000, 2292179000, 588403000, 96283000, 2183910000, 871015000, 74529000, 2369260000, 204145000,
  142749000, 422873000, 112242000, 602836000, 22175430000, 7718202000, 1062355000, 102917000, 4290385000, 380517000, 1810529000, 2077524000,
  170031000, 14008350000, 2046161000, 3833911000, 1117115000, 54789000, 1942706000, 203871000, 112206000, 750310000, 40393000, 252895000,
  33250000, 267454000, 825863000, 1320294000, 344835000, 948137000, 28673000, 1317082000, 2954943000, 991394000, 2914996000, 10406160000,
  5327817000, 5084499000, 4140205000, 15625931000, 465350000, 1782764000, 184064000, 171935000, 18973892000, 124442000, 18968212000, 987843000,
  18484988000, 1033204000, 18895114000, 8331040000, 23715000, 18477000, 228227000, 280724000, 0, 41830000, 31740000, 616919000,
  1091239000, 31025000, 223633000, 184756000, 603240000, 1034002000, 362746000, 804262000, 15802000, 189067000, 15186000, 129854000,
  374452000, 778669000, 214555000, 544873000, 22967000, 68493000, 55736000, 262399000, 1000966000, 456332000, 1324617000, 103383000,
  76915000, 1062863000, 11160793000, 1028593000, 2175456000]

def col2 : List Nat := [
  0, 23110000, 105861000, 2333439000, 18885000, 748418000, 222314000, 1362688000, 6333000, 1142000, 0, 12048416000,
  19019712000, 43038741000, 39992638000, 24266100000, 41449479000, 33535181000, 0, 1972649000, 6560000, 93814000, 93806000, 1396029000,
  8321516000, 3673302000, 3323772000, 14151468000, 7250401000, 20721000, 304615000, 21608000, 21358000, 0, 113431000, 2916959000,
  6606514000, 1557145000, 934326000, 4542390000, 766358000, 129652000, 4534094000, 22636000, 1094544000, 670940000, 2099000, 2152000,
  315849000, 3967146000, 5036644000, 70467000, 2677749000, 1680801000, 651049000, 116713000, 2870105000, 1169630000, 632573000, 2404683000,
  455327000, 457596000, 16083000, 92656000, 307985000, 931473000, 211000, 77866000, 328856000, 968505000, 453281000, 3098317000,
  11770000, 45030000, 2894292000, 2521597000, 36644000, 875179000, 1380978000, 1420439000, 748570000, 604533000, 69873000, 5714454000,
  349725000, 270143000, 1242221000, 300260000, 207708000, 6309171000, 775740000, 1348866000, 4064898000, 159514000, 216222000, 1318313000,
  17994476000, 5245658000, 651413000, 2869722000, 241917000, 737645000, 512987000, 26604000, 783546000, 327731000, 138635000, 2193324000,
  577414000, 305620000, 68004000, 3029145000, 132648000, 38118000, 407340000, 302710000, 54142000, 2913773000, 136446000, 123977000,
  832527000, 191624000, 52849000, 1711619000, 341110000, 69974000, 380279000, 3488631000, 548624000, 1010229000, 226178000, 6815213000,
  356330000, 1532028000, 381733000, 13377225000, 2575135000, 43430000, 3559529000, 181798000, 909416000, 135047000, 62386000, 3147731000,
  639175000, 1691131000, 115891000, 474020000, 198213000, 96377000, 4501104000, 404404000, 798445000, 764449000, 143385000, 5212857000,
  303022000, 1616390000, 444509000, 3925953000, 307857000, 465502000, 9504146000, 1590972000, 2726584000, 4730106000, 125010000, 62301000,
  3567816000, 533366000, 455692000, 811939000, 282879000, 196794000, 4792897000, 354049000, 644612000, 1689842000, 75983000, 1095792000,
  159542000, 392406000, 8910151000, 1122587000, 255739000, 1398415000, 2158054000, 125292000, 178706000, 476648000, 281740000, 77291000,
  2471550000, 311403000, 323801000, 545132000, 6310000, 605240000, 36063000, 96048000, 2675460000, 33597000, 826521000, 204815000,
  120652000, 3225000000, 198972000, 1033275000, 489425000, 87532000, 2949940000, 362985000, 143369000, 434841000, 2016108000, 273809000,
  560368000, 695716000, 5757483000, 336417000, 1700908000, 511854000, 93561000, 2080169000, 766114000, 133946000, 2162354000, 320016000,
  101054000, 491546000, 148917000, 603892000, 14658527000, 6056033000, 696894000, 129643000, 5544071000, 512165000, 2323297000, 1694722000,
  73445000, 4414331000, 357395000, 1043515000, 259923000, 83425000, 2493162000, 254994000, 163741000, 1192921000, 23112000, 95272000,
  20944000, 88772000, 748448000, 412337000, 222314000, 360785000, 6220000, 12047648000, 16111895000, 9900877000, 16100570000, 39992176000,
  31102585000, 24265328000, 23062229000, 41489695000, 635542000, 1050997000, 90910000, 1395962000, 44724775000, 1004154000, 44603001000, 3673221000,
  44303902000, 3323760000, 44920669000, 17518906000, 20694000, 15760000, 145313000, 20165000, 0, 113815000, 72732000, 1558843000,
  4049273000, 44204000, 276184000, 163428000, 750544000, 1139660000, 462885000, 787172000, 39350000, 245361000, 38887000, 195393000,
  1193494000, 1017599000, 514596000, 716126000, 960000, 77878000, 61703000, 278698000, 968616000, 453329000, 1189104000, 45030000,
  41825000, 875180000, 3328049000, 1380968000, 749238000]

def col3 : List Nat := [
  0, 24938000, 69772000, 1769896000, 25431000, 753905000, 317989000, 1194822000, 11947000, 1793000, 0, 9292906000,
  9681022000, 42851538000, 28070541000, 15309051000, 28601299000, 21280229000, 0, 336490000, 1122000, 146857000, 147893000, 2726256000,
  11901689000, 4740524000, 4134449000, 15302426000, 12620862000, 13533000, 133002000, 7054000, 6960000, 0, 63196000, 3489556000,
  3971671000, 939266000, 527599000, 2977654000, 833078000, 92870000, 2600538000, 14145000, 348061000, 379392000, 381000, 396000,
  218324000, 2696051000, 3227224000, 51300000, 1311133000, 1121805000, 337321000, 24337000, 511712000, 168817000, 109974000, 916445000,
  65123000, 64201000, 24236000, 164991000, 572732000, 1300246000, 140000, 84403000, 468360000, 1278697000, 651445000, 4112647000,
  2377000, 12496000, 930468000, 1247874000, 12849000, 411977000, 535028000, 652774000, 351314000, 253428000, 66199000, 4900697000,
  453328000, 334358000, 681551000, 788081000, 56435000, 1663866000, 142997000, 366146000, 1109439000, 34539000, 62274000, 309344000,
  5173101000, 1146388000, 114359000, 2783673000, 233807000, 594149000, 378870000, 64020000, 1419803000, 377238000, 299336000, 5097187000,
  933353000, 544380000, 54269000, 1244200000, 64645000, 21232000, 220164000, 165888000, 77309000, 2418409000, 88322000, 163871000,
  601477000, 235353000, 71083000, 2699462000, 591640000, 66084000, 608368000, 3449259000, 446603000, 1133652000, 36269000, 982264000,
  29422000, 194938000, 92785000, 15122983000, 3245775000, 45490000, 2707470000, 85046000, 474360000, 107829000, 108856000, 2971757000,
  688786000, 1783792000, 70641000, 376838000, 308751000, 58837000, 2332666000, 195495000, 534279000, 421848000, 115470000, 3679652000,
  195966000, 1055302000, 289060000, 4665199000, 369822000, 494149000, 11142224000, 2448505000, 3660545000, 6932498000, 223991000, 81843000,
  3598300000, 538210000, 481536000, 2421111000, 561647000, 622429000, 4369594000, 243255000, 564067000, 1558533000, 105263000, 1080631000,
  192938000, 308163000, 2791109000, 355882000, 132154000, 562514000, 1185336000, 76740000, 113244000, 243121000, 184965000, 86796000,
  2462315000, 405670000, 384759000, 661386000, 6025000, 323270000, 13708000, 68018000, 4195641000, 77947000, 1715992000, 519697000,
  190614000, 6428880000, 429607000, 2302756000, 1077687000, 62569000, 3046193000, 167689000, 109460000, 320031000, 1500758000, 159080000,
  340011000, 560483000, 3996521000, 291508000, 1571212000, 415801000, 60149000, 2058531000, 737106000, 82103000, 1365017000, 195314000,
  60921000, 333550000, 115528000, 413775000, 9095010000, 4171050000, 648442000, 162595000, 6737557000, 731508000, 3208762000, 1684553000,
  41997000, 1753352000, 106104000, 433663000, 171984000, 114813000, 3226379000, 339229000, 268744000, 1161086000, 24939000, 67597000,
  24864000, 51065000, 753881000, 249629000, 317988000, 225552000, 11752000, 9292890000, 6780855000, 7760624000, 6804750000, 28071251000,
  17383041000, 15308604000, 12932145000, 28534092000, 117993000, 292644000, 146546000, 2726161000, 48673684000, 1924378000, 48599892000, 4740559000,
  49726099000, 4134858000, 48862790000, 26628112000, 13487000, 9375000, 71485000, 6589000, 0, 64554000, 42948000, 941553000,
  4531697000, 66069000, 369985000, 212085000, 1004276000, 1561932000, 485368000, 1040249000, 53854000, 300671000, 53545000, 256782000,
  1484721000, 1301468000, 639590000, 1070307000, 691000, 84409000, 69007000, 337095000, 1278793000, 651466000, 1354856000, 12496000,
  15696000, 411980000, 1350143000, 535024000, 351434000]

def col4 : List Nat := [
  0, 48470000, 217453000, 3760465000, 35638000, 1521950000, 747813000, 3335779000, 8167000, 3108000, 0, 3956571000,
  2757638000, 40880017000, 16162597000, 7239936000, 13115298000, 8417615000, 0, 393971000, 1020000, 38405000, 38571000, 2163383000,
  13454699000, 4961461000, 3529702000, 13882008000, 18521270000, 14056000, 201877000, 9762000, 8506000, 0, 24965000, 2654349000,
  1411404000, 285651000, 188976000, 1223540000, 748119000, 80349000, 1736957000, 9155000, 289954000, 246479000, 112000, 110000,
  121833000, 1046782000, 2418066000, 36288000, 955308000, 764743000, 253788000, 2283000, 63067000, 16975000, 12334000, 132084000,
  3643000, 3540000, 48340000, 305491000, 1332782000, 2218429000, 117000, 74542000, 564798000, 1173596000, 683333000, 4638575000,
  1151000, 7936000, 311558000, 624028000, 4005000, 366052000, 267520000, 416156000, 158067000, 73932000, 29301000, 2465190000,
  148837000, 287653000, 335056000, 394572000, 38609000, 1467043000, 66177000, 308886000, 644579000, 19686000, 33927000, 210719000,
  1818453000, 400906000, 119140000, 2118145000, 174797000, 486505000, 218280000, 40435000, 1793624000, 140763000, 150115000, 4722231000,
  976372000, 446509000, 60308000, 1257846000, 89531000, 31721000, 250743000, 245274000, 74768000, 2947076000, 131177000, 194191000,
  717263000, 389214000, 69063000, 2046388000, 190247000, 67835000, 602604000, 4491121000, 403021000, 1315900000, 23925000, 850731000,
  16418000, 118879000, 71493000, 13529507000, 3119691000, 106680000, 4973280000, 173786000, 1245700000, 324479000, 64320000, 2829311000,
  537714000, 2051564000, 154843000, 398372000, 499125000, 45092000, 1719765000, 126777000, 501552000, 237423000, 115957000, 4409166000,
  226401000, 1317371000, 361410000, 3576381000, 237342000, 512658000, 10620470000, 2265301000, 3755151000, 6192640000, 266815000, 109396000,
  1093759000, 266582000, 329610000, 12458666000, 2951848000, 1869842000, 3666132000, 226537000, 446440000, 1226358000, 81646000, 772710000,
  114965000, 222064000, 4739973000, 303632000, 267981000, 623446000, 3104180000, 187683000, 250622000, 566327000, 328963000, 115628000,
  3425635000, 742014000, 426775000, 748571000, 48799000, 1271811000, 93646000, 431357000, 11554684000, 272290000, 3801559000, 1199861000,
  157294000, 6392700000, 490061000, 2310594000, 933846000, 53028000, 4054649000, 136342000, 101097000, 283573000, 3232316000, 253916000,
  766306000, 837771000, 3189212000, 246759000, 888250000, 320696000, 85037000, 4455215000, 1692716000, 82714000, 1770272000, 128600000,
  74854000, 431835000, 174142000, 168509000, 5435897000, 2546350000, 276015000, 159334000, 9739049000, 1412837000, 4651609000, 1497770000,
  77117000, 3181101000, 157406000, 809394000, 352559000, 107734000, 2622185000, 247906000, 285602000, 886476000, 48471000, 209850000,
  53198000, 137344000, 1521919000, 1286526000, 747809000, 883491000, 8166000, 3956554000, 2672696000, 3445446000, 2142987000, 16163030000,
  8820361000, 7239951000, 6672968000, 13051756000, 16924000, 90175000, 37779000, 2163213000, 50427274000, 1734543000, 50131539000, 4961357000,
  52794986000, 3530851000, 50522252000, 36160837000, 13898000, 10801000, 80067000, 9248000, 0, 25719000, 19868000, 288413000,
  3000759000, 64587000, 340617000, 262842000, 1175592000, 1396324000, 478855000, 1023004000, 94617000, 539339000, 88559000, 407268000,
  2478598000, 2598555000, 1110045000, 1990893000, 1305000, 74521000, 61610000, 375038000, 1173755000, 683362000, 1525893000, 7937000,
  6909000, 366056000, 383922000, 267521000, 159963000]

def col5 : List Nat := [
  0, 91518000, 445033000, 7654676000, 41183000, 1565191000, 694934000, 5658335000, 1655000, 228000, 0, 2000827000,
  1346699000, 46375140000, 11568831000, 5366534000, 6864730000, 3599721000, 0, 2022806000, 4920000, 89382000, 89140000, 2011344000,
  14772250000, 5785408000, 2857224000, 13724360000, 24432654000, 13590000, 200064000, 8528000, 8102000, 0, 16553000, 1488574000,
  1010929000, 225197000, 133029000, 900377000, 458630000, 56081000, 2137412000, 5241000, 181919000, 118902000, 53000, 54000,
  31557000, 243213000, 1666611000, 11651000, 560640000, 314605000, 59322000, 422000, 16547000, 5118000, 2088000, 20310000,
  148000, 139000, 37666000, 248411000, 1010604000, 2111980000, 117000, 68204000, 416710000, 993876000, 528582000, 3733636000,
  779000, 16280000, 146219000, 743428000, 6474000, 209258000, 160515000, 429705000, 95272000, 27526000, 28850000, 1124134000,
  53463000, 182922000, 249761000, 220049000, 63241000, 1895691000, 104865000, 500478000, 1478705000, 57690000, 71421000, 435947000,
  842722000, 246125000, 138060000, 2550855000, 347693000, 633515000, 279459000, 23183000, 1489707000, 189884000, 116843000, 3597168000,
  907062000, 526525000, 83424000, 3016545000, 206421000, 54069000, 512166000, 504589000, 74605000, 1803197000, 196580000, 259903000,
  754744000, 476771000, 74036000, 2904406000, 253912000, 65691000, 704847000, 4259076000, 409931000, 1781806000, 44583000, 1559865000,
  46094000, 492604000, 150618000, 11447619000, 2760030000, 50588000, 2159243000, 129892000, 582779000, 109636000, 58349000, 1748475000,
  301159000, 2361838000, 275056000, 598683000, 522581000, 48413000, 1969258000, 165799000, 374969000, 243478000, 213341000, 7414320000,
  479674000, 2149009000, 733926000, 3413358000, 243190000, 553070000, 5481873000, 746185000, 1506060000, 7191253000, 237003000, 209929000,
  1871450000, 184822000, 420571000, 14217930000, 5236932000, 1948628000, 3576039000, 282304000, 698790000, 1461523000, 32726000, 250227000,
  42169000, 66506000, 2976740000, 83312000, 182953000, 365370000, 9797997000, 615249000, 898010000, 2098575000, 1259297000, 90640000,
  2440755000, 312731000, 260058000, 576328000, 18501000, 1753956000, 80214000, 176757000, 4272740000, 112844000, 1278648000, 431238000,
  161545000, 5635806000, 523415000, 2086525000, 1114875000, 17188000, 2106460000, 76300000, 44142000, 123869000, 5164984000, 336055000,
  1134946000, 1207345000, 2324640000, 191039000, 598756000, 280307000, 195767000, 9789214000, 3421615000, 106824000, 2563675000, 159761000,
  126475000, 759744000, 300437000, 80254000, 2846840000, 2151958000, 176305000, 158596000, 11809542000, 1978234000, 5343794000, 1355087000,
  116814000, 3142215000, 272683000, 869964000, 452555000, 104978000, 1782218000, 209259000, 215695000, 624199000, 91519000, 319791000,
  81962000, 239836000, 1565186000, 1927099000, 694933000, 1263674000, 1651000, 2000901000, 1239689000, 1467193000, 849230000, 11569609000,
  4683396000, 5366490000, 2762668000, 6971389000, 122070000, 375896000, 88736000, 2011042000, 45560428000, 1851193000, 45388118000, 5785760000,
  49474326000, 2858780000, 46652595000, 43825524000, 13508000, 12324000, 103770000, 7924000, 0, 16978000, 17742000, 224868000,
  1724740000, 45730000, 301941000, 232828000, 1185617000, 1248519000, 427988000, 861830000, 104974000, 785534000, 100525000, 452882000,
  2814349000, 2862026000, 1508060000, 2844669000, 2335000, 68194000, 54519000, 314591000, 993728000, 528691000, 1400816000, 16280000,
  15652000, 209259000, 238704000, 160523000, 106548000]

def col6 : List Nat := [
  0, 43201000, 231652000, 4695528000, 15586000, 756141000, 341661000, 3082646000, 886000, 123000, 0, 1449449000,
  723727000, 44204713000, 6877444000, 3312339000, 4081712000, 1960480000, 0, 1559108000, 4485000, 87436000, 87863000, 1471752000,
  9590425000, 3238575000, 1557850000, 5181119000, 14580746000, 13328000, 180432000, 8133000, 7874000, 0, 36475000, 1418909000,
  1650149000, 437363000, 252008000, 2107428000, 470229000, 33822000, 1728738000, 4472000, 110187000, 81845000, 19000, 20000,
  4164000, 24123000, 337363000, 1738000, 84548000, 40749000, 3976000, 1029000, 60351000, 11496000, 4592000, 43793000,
  214000, 209000, 28989000, 200274000, 820276000, 1499920000, 115000, 46172000, 237506000, 599547000, 323295000, 1946843000,
  376000, 13334000, 185298000, 1230946000, 5878000, 252913000, 276969000, 490077000, 116753000, 31309000, 17556000, 653716000,
  35322000, 70074000, 131411000, 88315000, 72598000, 1529341000, 169553000, 526292000, 2844071000, 84811000, 134200000, 648031000,
  759159000, 222852000, 123316000, 6046319000, 958250000, 1453978000, 823937000, 51667000, 1507125000, 362056000, 297272000, 2512363000,
  410156000, 361555000, 53536000, 2159117000, 155127000, 40534000, 371053000, 392887000, 92443000, 3233148000, 278008000, 408151000,
  1031016000, 661351000, 115698000, 3166203000, 169237000, 78591000, 1034238000, 5116403000, 620453000, 1885606000, 36854000, 1472962000,
  71888000, 353953000, 222537000, 11242741000, 2735240000, 36762000, 1711034000, 98783000, 306572000, 91921000, 61822000, 1221318000,
  299528000, 1281374000, 88552000, 203017000, 187989000, 44344000, 1278046000, 124857000, 207648000, 159809000, 139607000, 6465784000,
  358753000, 1773299000, 606387000, 3813011000, 206886000, 551580000, 3982558000, 300052000, 861209000, 9461742000, 243347000, 80326000,
  3306716000, 302717000, 372485000, 12439258000, 4935703000, 1252911000, 4045799000, 305707000, 946020000, 1424936000, 50197000, 396076000,
  63293000, 110964000, 2946633000, 78694000, 170896000, 462935000, 5428677000, 272029000, 528298000, 1143143000, 585582000, 68636000,
  1405438000, 199308000, 179842000, 341779000, 50288000, 4778460000, 219341000, 526380000, 2080196000, 70253000, 813340000, 262686000,
  136705000, 5483876000, 394284000, 1899984000, 1090903000, 25379000, 4524319000, 238753000, 73221000, 223626000, 5804172000, 216221000,
  1035400000, 899427000, 2851959000, 191969000, 640531000, 332169000, 192498000, 11104982000, 3301230000, 90139000, 2085094000, 214331000,
  103043000, 500884000, 334231000, 68215000, 2328301000, 1686354000, 204834000, 385701000, 15179420000, 2640013000, 8317436000, 2300157000,
  100580000, 1975789000, 216253000, 557775000, 335802000, 88946000, 1454964000, 136137000, 317137000, 567637000, 43203000, 173844000,
  33240000, 151593000, 756141000, 1082631000, 341661000, 512542000, 881000, 1449545000, 892678000, 671781000, 722127000, 6877755000,
  3452917000, 3312205000, 2256435000, 4146524000, 111178000, 542725000, 87456000, 1471815000, 13581702000, 1535888000, 13595769000, 3239550000,
  18403871000, 1559585000, 14840328000, 34105332000, 13227000, 11638000, 112031000, 7639000, 0, 36637000, 31229000, 437556000,
  2061706000, 22104000, 112345000, 79604000, 727160000, 511633000, 275457000, 387760000, 110933000, 529780000, 95209000, 359210000,
  2567441000, 2390746000, 961486000, 1937256000, 1946000, 46146000, 29222000, 213029000, 599370000, 323331000, 876077000, 13333000,
  14308000, 252916000, 522779000, 276975000, 129698000]

def col7 : List Nat := [
  0, 43218000, 166620000, 4345019000, 15281000, 688632000, 342001000, 2370067000, 931000, 148000, 0, 511979000,
  445163000, 35411544000, 5001707000, 2051618000, 2239482000, 909554000, 0, 1388849000, 3981000, 43755000, 44676000, 773767000,
  7137416000, 1473006000, 934543000, 2780857000, 9742773000, 20768000, 342617000, 11006000, 10238000, 0, 18456000, 515635000,
  1003016000, 220073000, 134660000, 1243358000, 222022000, 75587000, 2855534000, 8006000, 165721000, 135775000, 38000, 37000,
  2937000, 14174000, 384279000, 1255000, 46191000, 26957000, 627000, 1619000, 64722000, 11965000, 6394000, 40593000,
  707000, 661000, 26863000, 152752000, 694494000, 1409511000, 177000, 40252000, 216666000, 512909000, 321941000, 1851233000,
  178000, 12609000, 144304000, 972736000, 8656000, 314054000, 275189000, 310775000, 143163000, 39453000, 13305000, 991815000,
  54361000, 84982000, 129363000, 90311000, 83739000, 1400433000, 177850000, 373005000, 2035724000, 55717000, 124518000, 525281000,
  1058108000, 204111000, 97686000, 5732396000, 804038000, 1538582000, 448153000, 46975000, 1149869000, 168932000, 251672000, 2474411000,
  418610000, 247253000, 22379000, 1545560000, 71590000, 30297000, 249581000, 187137000, 128620000, 4633975000, 255140000, 806316000,
  1530098000, 529575000, 161880000, 3632377000, 377289000, 76259000, 1167349000, 5906389000, 1033466000, 1887468000, 29519000, 1549450000,
  75155000, 310293000, 147029000, 10606782000, 2345195000, 36591000, 1330833000, 106062000, 290113000, 98239000, 41149000, 832729000,
  220458000, 1753667000, 36008000, 191385000, 93053000, 21756000, 1194254000, 36037000, 141424000, 76346000, 123959000, 3752435000,
  248662000, 1185527000, 378716000, 3274313000, 167451000, 440480000, 2585411000, 223071000, 703496000, 9140562000, 312616000, 50818000,
  3175265000, 155659000, 360423000, 12180291000, 3358679000, 830828000, 2691571000, 193054000, 558362000, 1085252000, 121507000, 2802582000,
  287592000, 639605000, 8340395000, 140557000, 365541000, 725120000, 3794727000, 98763000, 372780000, 744336000, 362111000, 52385000,
  1399211000, 127859000, 139229000, 339574000, 45486000, 4480399000, 213405000, 618738000, 1611976000, 61172000, 647131000, 245832000,
  120136000, 4205577000, 278132000, 1356423000, 787873000, 65257000, 12407418000, 235353000, 167033000, 792387000, 5691950000, 219591000,
  1082701000, 750904000, 3083922000, 349896000, 967109000, 445605000, 135662000, 7366035000, 2431360000, 75615000, 2681931000, 147941000,
  102561000, 568056000, 271990000, 47552000, 1817238000, 810488000, 501386000, 633890000, 15631016000, 3226883000, 8598422000, 2183174000,
  68713000, 1870355000, 174672000, 665143000, 362548000, 69657000, 1514559000, 131402000, 223269000, 537475000, 43217000, 121826000,
  26626000, 118239000, 688630000, 736259000, 342000000, 529387000, 926000, 512017000, 588253000, 338459000, 316690000, 5001663000,
  2117858000, 2051618000, 1226041000, 2258596000, 134216000, 390267000, 44272000, 773797000, 5574068000, 598905000, 5357900000, 1473334000,
  10570860000, 934398000, 6617545000, 24081436000, 21728000, 14258000, 162314000, 9827000, 0, 18423000, 13725000, 219888000,
  1089106000, 25832000, 113782000, 89010000, 752862000, 628179000, 297830000, 483663000, 98682000, 384743000, 150676000, 260972000,
  1920263000, 1561087000, 841660000, 1499329000, 1605000, 40200000, 27167000, 178646000, 512813000, 321881000, 704581000, 12610000,
  11510000, 314055000, 816040000, 275193000, 145630000]

def col8 : List Nat := [
  0, 68886000, 245810000, 4629967000, 24640000, 1245610000, 600193000, 2853222000, 1113000, 210000, 0, 256643000,
  245876000, 16303231000, 2872752000, 1338180000, 1325936000, 598577000, 0, 2267412000, 6518000, 35403000, 36541000, 508787000,
  6825488000, 1919115000, 843513000, 3268673000, 7967970000, 57891000, 566922000, 21355000, 18227000, 0, 13655000, 245265000,
  929441000, 160819000, 93974000, 512884000, 113381000, 148917000, 6916250000, 17681000, 526305000, 357577000, 91000, 94000,
  3563000, 14035000, 300625000, 1139000, 37022000, 23598000, 176000, 2222000, 136648000, 23258000, 10192000, 57825000,
  726000, 601000, 44918000, 174874000, 1073071000, 1918817000, 142000, 45118000, 227300000, 636849000, 460759000, 1782746000,
  178000, 39727000, 222356000, 1581292000, 27091000, 681146000, 426546000, 557237000, 83942000, 27134000, 64534000, 4160787000,
  294017000, 477282000, 523224000, 510160000, 71085000, 1196967000, 151049000, 327561000, 2033817000, 59516000, 155122000, 578380000,
  3855059000, 697511000, 252481000, 5861787000, 687086000, 1344713000, 584845000, 16120000, 448350000, 67572000, 132266000, 3952691000,
  654398000, 239174000, 46124000, 2636563000, 152301000, 92676000, 432506000, 379592000, 140083000, 3814098000, 251164000, 591161000,
  1624301000, 587461000, 529235000, 5728037000, 765105000, 188245000, 1396538000, 6999762000, 1772956000, 1615931000, 63056000, 2321590000,
  122907000, 488323000, 265443000, 9133335000, 1949217000, 50709000, 1229022000, 147946000, 322756000, 195203000, 61696000, 1022113000,
  224424000, 3667659000, 72603000, 427957000, 181805000, 22682000, 1696504000, 41181000, 184292000, 114286000, 138121000, 2432975000,
  197978000, 917631000, 391211000, 2605353000, 142026000, 329075000, 2014753000, 215281000, 707734000, 7052797000, 336838000, 45282000,
  4277039000, 104997000, 311954000, 9204572000, 1819479000, 860445000, 2216446000, 169672000, 545767000, 861169000, 103243000, 1637457000,
  259187000, 760546000, 6859178000, 148772000, 596434000, 356471000, 10490476000, 279867000, 1048568000, 1840398000, 940767000, 65149000,
  1603913000, 144851000, 188781000, 405229000, 50068000, 3122690000, 151390000, 497634000, 3539809000, 124655000, 997513000, 419844000,
  190253000, 4420451000, 358073000, 1548004000, 1060989000, 68580000, 11828165000, 227947000, 300078000, 1436734000, 6620419000, 274116000,
  1389015000, 693819000, 2666751000, 245462000, 692997000, 297087000, 122973000, 4871567000, 1823268000, 48025000, 1209243000, 111359000,
  95834000, 370214000, 156602000, 23254000, 1151927000, 407408000, 81987000, 311391000, 12354142000, 2543674000, 6934130000, 1381487000,
  83388000, 1772424000, 287360000, 704387000, 462348000, 96295000, 1783340000, 211507000, 337230000, 750073000, 68881000, 186490000,
  42598000, 150963000, 1245617000, 974103000, 600194000, 628783000, 1110000, 256901000, 213037000, 170514000, 106641000, 2872553000,
  850089000, 1338173000, 631472000, 1323932000, 99368000, 462318000, 38643000, 508821000, 5138609000, 515152000, 4901598000, 1919306000,
  8551011000, 843965000, 5561814000, 20713347000, 63707000, 35060000, 220934000, 17327000, 0, 13778000, 8812000, 160832000,
  545134000, 44691000, 210148000, 118228000, 1078456000, 916175000, 436617000, 591098000, 105390000, 308448000, 213810000, 234599000,
  2162169000, 1446569000, 1132356000, 1163723000, 1445000, 45097000, 30322000, 168611000, 636853000, 460798000, 768287000, 39728000,
  33580000, 681157000, 883833000, 426561000, 82414000]

def col9 : List Nat := [
  0, 129943000, 502183000, 5303227000, 39235000, 1575275000, 861294000, 3240554000, 1425000, 295000, 0, 180233000,
  135829000, 6214877000, 1595766000, 601100000, 1015103000, 515700000, 0, 1702510000, 5583000, 165961000, 166817000, 476795000,
  4600099000, 638976000, 576032000, 1736613000, 6097203000, 40636000, 617931000, 24682000, 23171000, 0, 17121000, 222844000,
  1138867000, 158504000, 97212000, 363555000, 33109000, 105210000, 7600733000, 11702000, 347901000, 312521000, 112000, 110000,
  8864000, 37848000, 676511000, 2078000, 167833000, 54478000, 618000, 5496000, 301350000, 60259000, 35787000, 124830000,
  1114000, 1004000, 57019000, 238401000, 1329326000, 1791860000, 150000, 56797000, 267783000, 655439000, 357771000, 1857125000,
  147000, 162472000, 256040000, 2304136000, 44323000, 1198593000, 846459000, 853999000, 139864000, 30336000, 87343000, 2529221000,
  210864000, 397049000, 419932000, 356865000, 141907000, 2088552000, 247932000, 525719000, 2663025000, 118204000, 241435000, 875451000,
  6936159000, 1030188000, 288391000, 7573118000, 1055089000, 1880972000, 709008000, 15478000, 438794000, 35041000, 122924000, 3104484000,
  557770000, 263621000, 123582000, 4349279000, 302442000, 153413000, 914822000, 581523000, 85753000, 1556790000, 172176000, 303816000,
  711507000, 290028000, 524429000, 8299093000, 1030891000, 633921000, 2539838000, 5486143000, 2232718000, 1878150000, 133704000, 3038971000,
  207378000, 766278000, 396954000, 5909679000, 1537575000, 177545000, 2202048000, 334994000, 553638000, 606012000, 159092000, 2005964000,
  549624000, 9825749000, 345340000, 995717000, 484796000, 39648000, 3952973000, 99032000, 356734000, 185937000, 227252000, 3490310000,
  294018000, 1155987000, 473162000, 2677117000, 248940000, 388955000, 1690387000, 208480000, 608081000, 6039058000, 254611000, 40640000,
  2343830000, 85870000, 353100000, 9368479000, 1786099000, 573853000, 2693745000, 231115000, 587124000, 915504000, 100239000, 1720854000,
  283234000, 1508998000, 4226762000, 96076000, 535334000, 232955000, 13095290000, 477606000, 1505656000, 2423348000, 1175722000, 73029000,
  1477150000, 140326000, 199735000, 353378000, 95644000, 4489001000, 256681000, 645619000, 4254165000, 194135000, 1152130000, 527471000,
  271837000, 4410639000, 385087000, 1623759000, 1037714000, 114670000, 11013529000, 291832000, 231517000, 1909657000, 6681847000, 563015000,
  1379218000, 981490000, 2915433000, 204804000, 704732000, 243655000, 171094000, 3918856000, 1364879000, 50461000, 953971000, 107687000,
  60281000, 274571000, 117240000, 71469000, 733603000, 558132000, 148014000, 448225000, 13421160000, 3019340000, 6218764000, 1913579000,
  150451000, 2387420000, 484272000, 763092000, 647394000, 122146000, 2041294000, 281562000, 337868000, 831711000, 129944000, 192821000,
  75517000, 133263000, 1575286000, 1166666000, 861300000, 519271000, 1419000, 180357000, 88048000, 90551000, 52639000, 1595709000,
  454576000, 601100000, 303701000, 992713000, 122231000, 390099000, 164022000, 476805000, 2780846000, 274930000, 2570865000, 638783000,
  6261485000, 576842000, 3060130000, 17664707000, 41677000, 21132000, 228850000, 22839000, 0, 17119000, 10620000, 158633000,
  405972000, 71322000, 189807000, 142036000, 1088904000, 817250000, 532709000, 672265000, 371187000, 543191000, 217658000, 389763000,
  3859186000, 2458146000, 2097441000, 2040115000, 1642000, 56663000, 32174000, 202118000, 655597000, 358167000, 880238000, 162471000,
  83423000, 1198613000, 1305504000, 846479000, 139082000]

def col10 : List Nat := [
  0, 116471000, 217279000, 5920905000, 31620000, 1515383000, 730450000, 2669493000, 2332000, 378000, 0, 125618000,
  105408000, 4775381000, 1133522000, 514006000, 1144013000, 309471000, 0, 4196186000, 17081000, 243329000, 261416000, 79456000,
  766196000, 262004000, 89942000, 363852000, 920673000, 61083000, 763815000, 19359000, 18913000, 0, 30328000, 360213000,
  1488038000, 170643000, 170883000, 559652000, 204897000, 112509000, 7617123000, 13756000, 393937000, 456926000, 107000, 98000,
  8267000, 40841000, 528324000, 2099000, 201536000, 53519000, 575000, 3429000, 150296000, 42101000, 16968000, 47154000,
  1383000, 1184000, 85169000, 176868000, 1273890000, 1431008000, 197000, 52430000, 172306000, 426538000, 262314000, 1302716000,
  74000, 232391000, 359801000, 3723006000, 52029000, 1188928000, 1376893000, 904187000, 192856000, 33844000, 120747000, 2379803000,
  248683000, 561839000, 612893000, 328944000, 165780000, 2061653000, 259099000, 516506000, 3195904000, 239062000, 400449000, 1063055000,
  7921844000, 1218255000, 411290000, 6144325000, 1116973000, 1931000000, 568655000, 10002000, 223615000, 22091000, 43427000, 4426833000,
  936381000, 392683000, 147617000, 4061012000, 217847000, 114771000, 754700000, 304358000, 94283000, 1359645000, 192314000, 252812000,
  473918000, 254970000, 223658000, 11393865000, 874400000, 481984000, 2446943000, 6577082000, 3109843000, 2491472000, 76229000, 1195057000,
  96009000, 271363000, 108933000, 4299593000, 1035541000, 152519000, 2217343000, 410623000, 560063000, 586280000, 246553000, 3098095000,
  1110035000, 11744917000, 474387000, 1538544000, 835825000, 78153000, 5330087000, 251428000, 892350000, 299487000, 222047000, 3781528000,
  358865000, 1225123000, 369261000, 4082225000, 367954000, 478115000, 2464680000, 318839000, 730303000, 7655352000, 431032000, 60128000,
  2357401000, 155549000, 335800000, 6994791000, 1910386000, 511612000, 4090180000, 480163000, 872637000, 1577445000, 186128000, 3528200000,
  423627000, 1474094000, 2998739000, 108304000, 285842000, 170416000, 7044381000, 445003000, 963843000, 1554064000, 642824000, 133908000,
  3436233000, 260243000, 561123000, 804754000, 86295000, 3540261000, 210186000, 516633000, 2076824000, 154836000, 757168000, 466259000,
  355235000, 4799407000, 582144000, 2109598000, 1034960000, 106983000, 5453113000, 274799000, 176632000, 1687693000, 8049173000, 1020989000,
  1484237000, 1284823000, 5603651000, 414912000, 1069377000, 434668000, 207070000, 3248913000, 1163496000, 95775000, 1872764000, 189457000,
  113860000, 491139000, 190923000, 16755000, 284856000, 140137000, 23652000, 467072000, 10081396000, 2890484000, 4120090000, 1789453000,
  199279000, 3037773000, 508670000, 825635000, 696540000, 179773000, 2937503000, 455008000, 531868000, 1088310000, 116472000, 183831000,
  63149000, 106693000, 1515378000, 989180000, 730454000, 603221000, 2311000, 125619000, 44781000, 82173000, 31592000, 1133522000,
  361908000, 514007000, 190438000, 1131671000, 188570000, 818930000, 237994000, 79452000, 170973000, 59686000, 157890000, 262133000,
  994683000, 89871000, 324990000, 6828821000, 61038000, 27306000, 302874000, 18128000, 0, 30653000, 14139000, 170544000,
  551754000, 90391000, 159412000, 119297000, 865334000, 736629000, 622347000, 608963000, 999724000, 480227000, 370293000, 414772000,
  5539047000, 2439751000, 2583674000, 1785815000, 1302000, 52592000, 26341000, 106242000, 426572000, 262635000, 530383000, 232392000,
  112099000, 1188910000, 2016381000, 1376878000, 188557000]

def col11 : List Nat := [
  0, 95997000, 163860000, 4564188000, 20388000, 1380910000, 637928000, 1774089000, 3100000, 530000, 0, 59848000,
  60328000, 2645972000, 525644000, 229291000, 396752000, 93511000, 0, 2834964000, 11600000, 469274000, 501751000, 11973000,
  192930000, 44714000, 19469000, 176744000, 94155000, 91198000, 749355000, 32071000, 31830000, 0, 206743000, 1435076000,
  4059933000, 633286000, 1145016000, 1809542000, 782220000, 164740000, 5922414000, 21167000, 689791000, 739859000, 102000, 92000,
  6240000, 32019000, 451054000, 1773000, 71524000, 50160000, 128000, 5505000, 226658000, 49688000, 21956000, 59524000,
  1143000, 614000, 129210000, 199976000, 1954023000, 1969956000, 316000, 105309000, 270355000, 813720000, 499347000, 1910964000,
  45000, 276373000, 362962000, 4037864000, 38185000, 1013633000, 1237143000, 1021376000, 277167000, 47593000, 117892000, 3003963000,
  228650000, 604630000, 661497000, 263192000, 208486000, 2708477000, 440936000, 733694000, 2988832000, 363702000, 553509000, 926887000,
  6051632000, 1526648000, 412866000, 4317898000, 1149406000, 1583801000, 668568000, 59487000, 985826000, 156639000, 181771000, 5139552000,
  900193000, 283432000, 111768000, 4068038000, 241515000, 95196000, 555232000, 196954000, 114418000, 1035258000, 173716000, 134740000,
  428552000, 207231000, 363103000, 5137956000, 614591000, 470078000, 1764591000, 5151352000, 2036048000, 2596807000, 59422000, 1088537000,
  112181000, 211066000, 83972000, 3270981000, 792942000, 184871000, 3373780000, 909075000, 672928000, 592353000, 302818000, 3744674000,
  741418000, 3933766000, 410380000, 532276000, 249978000, 110711000, 4347324000, 336659000, 1106540000, 367487000, 251954000, 2726262000,
  409069000, 802621000, 325687000, 4144003000, 523405000, 576060000, 3127952000, 630558000, 964599000, 7839883000, 721091000, 122236000,
  3957861000, 248666000, 423931000, 5153552000, 1693681000, 716668000, 4104845000, 603736000, 1080007000, 1445168000, 514098000, 3932213000,
  773831000, 788263000, 4647987000, 201430000, 452653000, 280245000, 4946819000, 482441000, 695463000, 1436913000, 481227000, 260798000,
  3849137000, 385758000, 407344000, 951332000, 130952000, 5120581000, 433742000, 630319000, 3654711000, 316628000, 1507008000, 608547000,
  578232000, 5425228000, 1096097000, 2492567000, 1102458000, 108370000, 4337193000, 371168000, 157638000, 1641169000, 6721832000, 1545905000,
  1695034000, 1402955000, 5728396000, 592802000, 1434984000, 729651000, 310108000, 3040652000, 1386199000, 64878000, 1688459000, 118195000,
  70511000, 269239000, 101946000, 50069000, 425038000, 182675000, 53789000, 352414000, 8107750000, 2594012000, 2911029000, 1541834000,
  322623000, 3570786000, 881459000, 1249760000, 861884000, 267807000, 2488383000, 583384000, 755435000, 995978000, 95999000, 117595000,
  58643000, 73795000, 1380903000, 610412000, 637930000, 342830000, 3097000, 59848000, 33734000, 34929000, 16447000, 525637000,
  265989000, 229289000, 107049000, 353812000, 110097000, 649276000, 473688000, 11973000, 21555000, 7487000, 21424000, 44716000,
  170355000, 19467000, 54604000, 1959905000, 90971000, 58320000, 496900000, 31565000, 0, 196256000, 99268000, 632307000,
  2993193000, 207606000, 222052000, 184343000, 1576865000, 1134921000, 932444000, 696675000, 832059000, 644181000, 396232000, 484852000,
  5772685000, 3278315000, 2980028000, 2426719000, 854000, 105327000, 62522000, 146359000, 813988000, 499251000, 925324000, 276377000,
  128239000, 1013627000, 1946602000, 1237149000, 272798000]

def col12 : List Nat := [
  0, 214974000, 210168000, 5363658000, 25524000, 1947900000, 1103745000, 1789540000, 4626000, 991000, 0, 49891000,
  43189000, 1579342000, 434682000, 178298000, 148235000, 43456000, 0, 3525747000, 13708000, 203354000, 198908000, 25675000,
  198281000, 94761000, 56514000, 134823000, 256541000, 161343000, 712589000, 37539000, 37336000, 0, 61690000, 383656000,
  2197576000, 383697000, 206071000, 615935000, 357430000, 349388000, 10002871000, 47117000, 1474219000, 1510286000, 152000, 132000,
  10931000, 30296000, 580338000, 2936000, 109421000, 79774000, 138000, 9117000, 397582000, 82104000, 30696000, 80797000,
  1169000, 995000, 319892000, 342149000, 3702757000, 2525618000, 407000, 120674000, 278432000, 840712000, 413185000, 1857220000,
  51000, 376970000, 330253000, 4530168000, 46167000, 1187895000, 1475372000, 932864000, 270132000, 58647000, 118763000, 3104879000,
  299492000, 605781000, 608524000, 204568000, 401081000, 2991901000, 868686000, 884415000, 2997113000, 464406000, 551104000, 839709000,
  4613340000, 1106938000, 365176000, 3351544000, 1058946000, 1358829000, 762295000, 224686000, 2301890000, 419144000, 378063000, 5064628000,
  1119510000, 485442000, 211225000, 5171734000, 469072000, 156007000, 759523000, 247027000, 162097000, 804260000, 273163000, 150267000,
  341363000, 148975000, 123736000, 1868104000, 280733000, 92037000, 453550000, 3453599000, 1337094000, 2486399000, 139288000, 2117758000,
  405441000, 461628000, 165591000, 2354158000, 582460000, 542738000, 6146094000, 3065424000, 1236974000, 1281250000, 813010000, 3710566000,
  1039806000, 3327594000, 441629000, 446444000, 224929000, 187163000, 3921159000, 601833000, 947118000, 484916000, 347351000, 1717939000,
  520102000, 727470000, 276374000, 3362075000, 737524000, 471416000, 3240559000, 1049732000, 1032853000, 7407374000, 848939000, 210665000,
  4208782000, 523904000, 602763000, 6489791000, 2803959000, 1338788000, 3569624000, 1083987000, 1124229000, 1503562000, 338075000, 2191500000,
  328911000, 318461000, 5528091000, 347167000, 624552000, 543051000, 5263864000, 1108495000, 898791000, 1431702000, 710461000, 233205000,
  1670277000, 382475000, 237017000, 373254000, 391556000, 5012740000, 750801000, 870282000, 3737624000, 393278000, 1652330000, 563997000,
  952426000, 4621272000, 1718237000, 2410388000, 1101930000, 162767000, 6567369000, 621477000, 195239000, 1824021000, 4851170000, 1808157000,
  1423481000, 1088329000, 4772757000, 711064000, 1347709000, 478138000, 470684000, 2766092000, 1244122000, 124814000, 1283932000, 228191000,
  112383000, 334438000, 196978000, 45869000, 553633000, 277669000, 88573000, 514827000, 8494386000, 2808915000, 2784664000, 1459405000,
  512210000, 3424400000, 1435761000, 1199365000, 825238000, 226622000, 1689464000, 510531000, 376216000, 670340000, 214977000, 179546000,
  126494000, 103408000, 1947898000, 811080000, 1103747000, 521344000, 4540000, 49890000, 38241000, 27478000, 23211000, 434681000,
  273375000, 178296000, 165839000, 142744000, 86054000, 576914000, 203788000, 25675000, 234642000, 15045000, 237443000, 94760000,
  540467000, 56519000, 283195000, 3526396000, 161486000, 98985000, 559849000, 35020000, 0, 52658000, 70120000, 392290000,
  704014000, 275503000, 361581000, 185075000, 1901326000, 1902436000, 1153038000, 1027757000, 657352000, 324989000, 288278000, 301149000,
  3463527000, 1782041000, 1435748000, 1441147000, 722000, 120501000, 60957000, 188770000, 840868000, 413590000, 894101000, 376957000,
  167080000, 1187889000, 2317298000, 1475387000, 266571000]

def col13 : List Nat := [
  0, 470876000, 274211000, 6313131000, 52698000, 2827662000, 1632652000, 2209522000, 5461000, 1072000, 0, 104020000,
  126672000, 4562223000, 728002000, 378183000, 93133000, 28400000, 0, 4013032000, 26710000, 213465000, 214226000, 202947000,
  4373040000, 915731000, 911453000, 773801000, 1235853000, 333532000, 1172371000, 15018000, 13935000, 0, 203061000, 534337000,
  4290299000, 736638000, 432752000, 1318458000, 276901000, 268429000, 9525813000, 34448000, 1168121000, 1423690000, 133000, 126000,
  29503000, 166388000, 1218703000, 5959000, 243129000, 128446000, 420000, 23723000, 979219000, 150726000, 66563000, 202255000,
  2154000, 1569000, 288234000, 224648000, 2253294000, 1389685000, 323000, 111953000, 259161000, 759701000, 449736000, 1206294000,
  110000, 379147000, 493880000, 5100715000, 66768000, 1649030000, 2244875000, 1152593000, 332345000, 168271000, 324188000, 4432592000,
  989360000, 1028062000, 932543000, 386985000, 439562000, 2229810000, 971748000, 675484000, 2304101000, 529992000, 572530000, 665892000,
  3328648000, 797152000, 310646000, 2746377000, 801346000, 1097650000, 555509000, 149526000, 874409000, 300546000, 217403000, 3452992000,
  906996000, 493151000, 521685000, 4425232000, 755677000, 246887000, 861910000, 260560000, 366211000, 1082682000, 650170000, 270305000,
  471992000, 323830000, 181660000, 1824047000, 503720000, 168079000, 386711000, 2974203000, 936105000, 1940391000, 294478000, 1768175000,
  609567000, 601830000, 200265000, 530188000, 160826000, 241883000, 1723478000, 1025013000, 335903000, 348995000, 853489000, 3067167000,
  931193000, 3276283000, 410584000, 527178000, 234549000, 192511000, 2903419000, 456065000, 671828000, 249270000, 421591000, 1562912000,
  733062000, 589666000, 278230000, 3259333000, 1046934000, 443536000, 2446345000, 1406784000, 934772000, 8113718000, 2085882000, 272076000,
  3554331000, 495127000, 538884000, 6786278000, 1630553000, 1142094000, 3716749000, 1728900000, 1299879000, 1424860000, 548522000, 1949047000,
  918981000, 283933000, 4548344000, 409795000, 565449000, 616424000, 5654005000, 2068157000, 1674852000, 1490506000, 847107000, 334422000,
  1133706000, 509927000, 252573000, 480245000, 409887000, 4772039000, 781815000, 834652000, 1584061000, 178783000, 579264000, 324510000,
  1599465000, 4846008000, 3382289000, 2302606000, 1397966000, 239873000, 3932824000, 791296000, 412116000, 1075465000, 4463980000, 2239707000,
  1248707000, 991344000, 3669335000, 731326000, 803733000, 276064000, 820070000, 3301398000, 1297949000, 214945000, 1194461000, 430754000,
  129080000, 353415000, 197103000, 269662000, 1512982000, 598398000, 321616000, 509624000, 8148518000, 3048996000, 3079902000, 1409214000,
  583075000, 2372160000, 1425144000, 858297000, 609349000, 319708000, 2290884000, 918039000, 360621000, 697488000, 470887000, 213997000,
  236750000, 146205000, 2827684000, 1116160000, 1632671000, 775169000, 5358000, 104020000, 90890000, 65999000, 73432000, 728004000,
  680096000, 378184000, 419994000, 93039000, 171563000, 911676000, 213148000, 202940000, 1887620000, 93221000, 1916913000, 915727000,
  2576614000, 911471000, 2032391000, 9959072000, 333551000, 165452000, 1067639000, 14444000, 0, 203485000, 127994000, 734578000,
  1358038000, 368954000, 270034000, 167314000, 2097933000, 1230752000, 1232433000, 746873000, 420254000, 334164000, 295227000, 231943000,
  2330098000, 1598730000, 1109026000, 1376999000, 664000, 112112000, 64406000, 168247000, 760641000, 449386000, 855444000, 379131000,
  293053000, 1649077000, 3332196000, 2244959000, 338260000]

def col14 : List Nat := [
  0, 592764000, 463196000, 7567164000, 78823000, 3123683000, 2516934000, 2384976000, 5838000, 1066000, 0, 39549000,
  45003000, 1895329000, 279999000, 109729000, 104392000, 33022000, 0, 4098237000, 33784000, 24377000, 25662000, 291421000,
  6540892000, 1341194000, 1330842000, 779879000, 499237000, 412420000, 1136209000, 20609000, 18990000, 0, 312769000, 713445000,
  5193066000, 986790000, 509645000, 1476380000, 657184000, 186577000, 5346536000, 17318000, 1035843000, 1243939000, 79000, 67000,
  182338000, 299956000, 3303127000, 14375000, 635236000, 335416000, 1321000, 42321000, 945304000, 190086000, 101963000, 176627000,
  7349000, 1304000, 359694000, 267037000, 2130908000, 1665845000, 387000, 127766000, 179355000, 784078000, 597349000, 1169468000,
  66000, 142688000, 225441000, 1527879000, 15192000, 629681000, 559384000, 518913000, 80287000, 33207000, 372923000, 2968187000,
  647157000, 790245000, 640202000, 273208000, 391160000, 1248408000, 648078000, 401546000, 2062392000, 668070000, 452667000, 646249000,
  3934961000, 894017000, 422137000, 4059197000, 1044848000, 1403074000, 620374000, 196727000, 497293000, 216440000, 117134000, 2910151000,
  962038000, 380126000, 624163000, 4114890000, 632301000, 183405000, 655583000, 232330000, 1119746000, 3206351000, 2083674000, 1049257000,
  1203866000, 1254851000, 260171000, 3159622000, 649318000, 261498000, 613400000, 4363694000, 1057897000, 1701421000, 436190000, 1706688000,
  554722000, 348364000, 196483000, 225423000, 27455000, 161516000, 1008925000, 760077000, 256120000, 233293000, 896658000, 3307177000,
  912527000, 2908265000, 470799000, 587040000, 186402000, 281177000, 2659845000, 606648000, 716638000, 356245000, 1100672000, 3982525000,
  1743530000, 1105711000, 716025000, 3616184000, 1579883000, 593884000, 1833889000, 1397183000, 637811000, 9845797000, 2541023000, 296613000,
  2922977000, 482715000, 575444000, 8037606000, 1468335000, 1469847000, 5934135000, 3859006000, 2322280000, 2166354000, 846138000, 1760202000,
  1267997000, 708660000, 5683515000, 611230000, 1108282000, 1021251000, 8479034000, 3828065000, 2142815000, 2088620000, 1601166000, 242030000,
  692732000, 324586000, 146518000, 218062000, 431687000, 4208987000, 844281000, 744990000, 1540290000, 197331000, 788183000, 425594000,
  2373091000, 5215033000, 3920340000, 1990043000, 1911251000, 323216000, 2481127000, 510935000, 165189000, 394688000, 4524212000, 2222576000,
  1237731000, 1272864000, 3003512000, 1525792000, 848285000, 591293000, 1279265000, 4125808000, 1599097000, 244781000, 1112118000, 334067000,
  122825000, 284528000, 144669000, 968945000, 1830338000, 733361000, 937803000, 920589000, 9549682000, 3156039000, 3320827000, 1538581000,
  735020000, 2409241000, 2160577000, 777526000, 690174000, 748284000, 3857928000, 2116478000, 695671000, 1315488000, 592778000, 369243000,
  486475000, 188654000, 3123626000, 1340511000, 2516917000, 1003414000, 5622000, 39549000, 32404000, 29314000, 27126000, 279999000,
  248240000, 109729000, 171542000, 104269000, 206617000, 1375266000, 21444000, 291411000, 200260000, 139202000, 196162000, 1341214000,
  1614218000, 1330844000, 469026000, 4752772000, 412121000, 196464000, 999408000, 19552000, 0, 310521000, 159976000, 980177000,
  1941099000, 519819000, 319757000, 180169000, 2451729000, 1349181000, 1514176000, 959860000, 1008265000, 659948000, 509045000, 453683000,
  4353141000, 2652033000, 1556352000, 2593441000, 1079000, 127871000, 74364000, 121768000, 784185000, 597440000, 676399000, 142688000,
  69882000, 629660000, 1373109000, 559416000, 79642000]

def col15 : List Nat := [
  0, 920538000, 535198000, 7365928000, 90579000, 2832806000, 2018092000, 1956735000, 6451000, 1279000, 0, 83604000,
  111718000, 3054629000, 511768000, 324838000, 230853000, 65983000, 0, 4544640000, 26429000, 25663000, 28659000, 45151000,
  3918068000, 1114927000, 1051183000, 1311442000, 153178000, 461432000, 1670920000, 23803000, 21388000, 0, 604496000, 2009732000,
  10758722000, 2171008000, 1562853000, 3856844000, 1533255000, 151501000, 5155486000, 11948000, 1069546000, 722049000, 137000, 111000,
  46460000, 241198000, 2117181000, 6362000, 360523000, 169821000, 440000, 78734000, 1973025000, 352075000, 202187000, 407610000,
  21877000, 4105000, 707766000, 446974000, 3471956000, 2028365000, 524000, 173119000, 187797000, 865518000, 625533000, 1443489000,
  43000, 143618000, 301374000, 1142777000, 18671000, 429475000, 388883000, 519718000, 44785000, 24034000, 362882000, 1910057000,
  435612000, 448070000, 560651000, 243221000, 682870000, 2105225000, 880050000, 503969000, 2632814000, 854221000, 669633000, 923092000,
  3424632000, 860885000, 507002000, 4888597000, 1074924000, 1747870000, 665632000, 205371000, 1449351000, 730291000, 259480000, 3350946000,
  997496000, 384019000, 1028676000, 5230155000, 774322000, 210589000, 793498000, 277817000, 1269948000, 2469871000, 1955905000, 1284658000,
  1087079000, 1158263000, 244559000, 2872410000, 544092000, 220426000, 582546000, 3289372000, 852367000, 1682007000, 359833000, 1567653000,
  342355000, 353488000, 208798000, 286023000, 25299000, 298806000, 1583098000, 1036803000, 461135000, 408637000, 700211000, 2206398000,
  550563000, 3130969000, 751137000, 606453000, 187530000, 598896000, 3470100000, 729125000, 785348000, 377786000, 1679943000, 5644081000,
  2667070000, 1661381000, 952738000, 4296537000, 1816588000, 706296000, 1937116000, 1456198000, 640011000, 9198054000, 2250213000, 551559000,
  5021629000, 895020000, 904167000, 1998109000, 730841000, 931315000, 4271810000, 2892750000, 1472024000, 1632774000, 612603000, 3003456000,
  1001932000, 570416000, 8423481000, 1061446000, 1387934000, 1658171000, 5845228000, 2829391000, 1485848000, 1454271000, 1261600000, 365229000,
  1203279000, 551359000, 292272000, 425151000, 494117000, 3899283000, 785935000, 773797000, 2671418000, 333794000, 1179177000, 562918000,
  3081415000, 5997283000, 4098304000, 2260856000, 2212233000, 356029000, 3711163000, 575974000, 193453000, 656541000, 5210672000, 2946229000,
  1464053000, 1479601000, 2325647000, 1263137000, 536332000, 441889000, 1912305000, 3633403000, 1656169000, 245578000, 900747000, 258416000,
  87263000, 235737000, 125637000, 759309000, 2776864000, 900817000, 1106487000, 750035000, 6671129000, 1877334000, 2369798000, 988358000,
  1348985000, 3744293000, 2028743000, 1152579000, 962439000, 1593073000, 4231213000, 2127061000, 1037251000, 1849661000, 920580000, 250451000,
  415944000, 199906000, 2832740000, 1309780000, 2018088000, 1271006000, 6371000, 83604000, 56255000, 50099000, 36522000, 511770000,
  440042000, 324835000, 277457000, 235631000, 178517000, 872288000, 21652000, 45148000, 69350000, 49135000, 60259000, 1114942000,
  474615000, 1051230000, 236656000, 2102382000, 460647000, 259251000, 1436848000, 22277000, 0, 599588000, 505032000, 2142336000,
  4737753000, 415331000, 312364000, 171732000, 2468210000, 1588963000, 1631765000, 1020498000, 1493893000, 813316000, 798096000, 725095000,
  4918011000, 3078936000, 1918997000, 2942427000, 1571000, 173003000, 140336000, 106329000, 865297000, 625779000, 784093000, 143620000,
  57995000, 429432000, 1217133000, 388845000, 44105000]

def col16 : List Nat := [
  0, 1097158000, 754707000, 9426241000, 113745000, 4085149000, 3267566000, 2959276000, 11002000, 2216000, 0, 601034000,
  558005000, 9756451000, 3008673000, 2266948000, 716335000, 182700000, 0, 3207158000, 18953000, 54711000, 62935000, 26504000,
  608711000, 80374000, 169251000, 257996000, 112256000, 476603000, 2614618000, 21590000, 17783000, 0, 667846000, 1529329000,
  10738365000, 2430922000, 1381225000, 3754745000, 1849400000, 388570000, 11741159000, 36554000, 2652604000, 2227205000, 789000, 519000,
  127479000, 325198000, 5195407000, 11799000, 579150000, 314516000, 336000, 85453000, 1924284000, 365389000, 161614000, 307583000,
  6685000, 3457000, 771968000, 573384000, 3593621000, 1898906000, 1089000, 121306000, 143942000, 694163000, 354491000, 1266696000,
  36000, 148786000, 216914000, 1801544000, 26442000, 764032000, 562569000, 830799000, 37369000, 16414000, 343399000, 2118660000,
  362552000, 594682000, 516533000, 212401000, 1060378000, 2040789000, 1087733000, 609742000, 3191449000, 927563000, 964411000, 984889000,
  2979166000, 900021000, 450257000, 3258439000, 1028308000, 996625000, 476724000, 132322000, 810406000, 313455000, 135070000, 3769122000,
  947251000, 367844000, 579163000, 3865633000, 519791000, 170088000, 678760000, 224742000, 1210939000, 2065578000, 1321105000, 869250000,
  1021848000, 890472000, 271686000, 2986881000, 458307000, 173475000, 800600000, 2523908000, 840723000, 2286770000, 154490000, 752841000,
  159034000, 232616000, 112056000, 247338000, 49785000, 417013000, 2320624000, 1265616000, 601044000, 532126000, 1036505000, 2607304000,
  776049000, 3348267000, 818122000, 579130000, 148426000, 1186823000, 3549619000, 1136878000, 1274527000, 549348000, 648404000, 2349922000,
  935871000, 667557000, 376859000, 3855507000, 1326011000, 546117000, 2318796000, 1394181000, 831876000, 7782588000, 1488548000, 841123000,
  7047994000, 1161777000, 1005013000, 1655270000, 970302000, 915964000, 3319320000, 2640014000, 1425092000, 1531924000, 1045790000, 4526988000,
  1660339000, 933453000, 9988222000, 1429685000, 1550896000, 1973181000, 5227466000, 2956617000, 2266687000, 1574681000, 1317444000, 530374000,
  1912727000, 588041000, 368690000, 492783000, 834098000, 5756896000, 1114437000, 1327492000, 3496275000, 490981000, 1626550000, 761490000,
  3405818000, 5542368000, 4113641000, 2408155000, 2098057000, 556438000, 2739848000, 577548000, 194197000, 1098807000, 4971270000, 1932539000,
  1379872000, 1051519000, 2635125000, 1096855000, 764670000, 340151000, 2619608000, 4501260000, 1974321000, 448262000, 1527523000, 395075000,
  168412000, 390433000, 211604000, 553553000, 3382965000, 1238114000, 762830000, 746476000, 5386249000, 1748526000, 2154926000, 1015210000,
  2362693000, 5079408000, 2722121000, 1598733000, 1407502000, 1949035000, 4364929000, 2044523000, 973672000, 1819199000, 1097148000, 261728000,
  666321000, 213204000, 4085099000, 1554498000, 3267536000, 1076477000, 10558000, 601033000, 134233000, 238052000, 85398000, 3008664000,
  1427405000, 2266937000, 765766000, 721088000, 261552000, 752729000, 47449000, 26503000, 28888000, 22630000, 24108000, 80369000,
  207956000, 169248000, 67609000, 1565624000, 477149000, 290727000, 1635092000, 20087000, 0, 678225000, 416082000, 2415914000,
  4168039000, 403148000, 196068000, 156356000, 2403878000, 1575043000, 1425332000, 700476000, 1427863000, 936302000, 786126000, 765425000,
  5189194000, 3433042000, 2483039000, 2856247000, 1933000, 121342000, 70728000, 89584000, 693931000, 354665000, 691114000, 148782000,
  98037000, 764044000, 1342683000, 562547000, 36280000]

def col17 : List Nat := [
  0, 1683330000, 1073709000, 12490393000, 240697000, 6093682000, 5534718000, 4997852000, 70669000, 4528000, 0, 1011468000,
  898324000, 9047512000, 6274893000, 5889698000, 954509000, 316916000, 0, 3762739000, 19132000, 51128000, 50315000, 129046000,
  1724755000, 227417000, 128826000, 859276000, 244323000, 491994000, 2355826000, 111326000, 31135000, 0, 482293000, 1168646000,
  8750749000, 1908559000, 1059475000, 2420797000, 1680211000, 256829000, 8060610000, 21714000, 1870632000, 1123832000, 1945000, 1043000,
  120667000, 340436000, 4606151000, 18940000, 529119000, 303633000, 103449000, 91933000, 2231597000, 506620000, 237139000, 681328000,
  42541000, 1809000, 705029000, 517877000, 3278259000, 1678643000, 1145000, 260020000, 185898000, 1407703000, 787807000, 1834309000,
  79000, 156769000, 210324000, 1573467000, 21015000, 575137000, 449275000, 704125000, 64916000, 17460000, 598540000, 2672308000,
  558700000, 944720000, 545502000, 411229000, 595820000, 1173417000, 599686000, 350670000, 3139935000, 958349000, 841448000, 944981000,
  2099066000, 623674000, 486915000, 2883411000, 879763000, 929919000, 439982000, 546004000, 3120478000, 705794000, 588146000, 3464181000,
  688570000, 376706000, 612783000, 3924702000, 670563000, 221984000, 658406000, 292109000, 1038601000, 1800148000, 997094000, 667764000,
  780670000, 653561000, 202253000, 2659608000, 459308000, 287860000, 595755000, 2136918000, 870220000, 2232825000, 443115000, 1125345000,
  266288000, 255019000, 132485000, 161648000, 37208000, 730789000, 3136319000, 1961838000, 882251000, 972751000, 770582000, 1639463000,
  354350000, 3416185000, 1045021000, 771268000, 201814000, 895788000, 2768875000, 463272000, 708984000, 281578000, 568039000, 1918014000,
  708640000, 563739000, 273471000, 3116044000, 1077256000, 525545000, 2566201000, 1425174000, 1100727000, 7419840000, 1671373000, 1020305000,
  7209955000, 1563653000, 1297883000, 4925078000, 2187052000, 1726809000, 2738137000, 2631257000, 1142840000, 1065630000, 625495000, 2577455000,
  1112143000, 431734000, 9719218000, 1223916000, 1603458000, 1878791000, 5704316000, 2915967000, 2252914000, 1660588000, 1530186000, 642490000,
  2141940000, 603491000, 551522000, 574471000, 427511000, 6613758000, 777755000, 978695000, 3457094000, 719798000, 1906457000, 932242000,
  4521018000, 6361609000, 5337190000, 2515137000, 2448162000, 418940000, 2565496000, 496120000, 182960000, 376609000, 4068168000, 1357824000,
  1114284000, 789766000, 3996941000, 1675542000, 1360788000, 655986000, 1714944000, 2716792000, 1230218000, 615085000, 1784584000, 373900000,
  202879000, 512226000, 188498000, 433983000, 3252110000, 1177775000, 579511000, 598869000, 6076302000, 1787547000, 1789688000, 691125000,
  1783889000, 3381371000, 2251630000, 1105888000, 1148643000, 1831065000, 3529340000, 2062514000, 1076121000, 1516991000, 1683269000, 441828000,
  1168200000, 289730000, 6093752000, 3268479000, 5534754000, 1888074000, 64238000, 1011495000, 356095000, 574425000, 203044000, 6274751000,
  5666275000, 5889698000, 1331024000, 952400000, 211784000, 960779000, 47144000, 129053000, 144972000, 53021000, 79170000, 227299000,
  9286698000, 128797000, 331301000, 17241026000, 490596000, 291454000, 962090000, 99081000, 0, 492023000, 422131000, 1890851000,
  12378517000, 375310000, 167229000, 123476000, 2174258000, 1254727000, 1244679000, 702151000, 2114801000, 1780912000, 1328445000, 1173011000,
  10690163000, 9035892000, 4624452000, 6117856000, 17755000, 259124000, 172706000, 179884000, 1405482000, 788011000, 953370000, 156755000,
  106867000, 575138000, 1501477000, 449277000, 62566000]

def col18 : List Nat := [
  0, 1809109000, 1155271000, 13204481000, 288635000, 6954049000, 5442442000, 4572125000, 53965942000, 4283000, 0, 2409783000,
  2343226000, 19976380000, 13831242000, 11430575000, 40382123000, 411126000, 0, 5988393000, 25459000, 3733142000, 124809000, 85509000,
  1432766000, 171870000, 115714000, 674215000, 188268000, 395881000, 1659886000, 39071436000, 17820000, 0, 346866000, 1271156000,
  7311854000, 1473716000, 908248000, 2837082000, 2496552000, 141131000, 2917911000, 13623000, 1575827000, 551219000, 2933987000, 4395000,
  132365000, 416366000, 4953638000, 21764000, 717947000, 315267000, 20896328000, 236746000, 6033964000, 1096141000, 777599000, 1533231000,
  44611877000, 3225000, 988355000, 775063000, 4512998000, 2448425000, 1119000, 259744000, 166789000, 1228746000, 872390000, 1452176000,
  57000, 119587000, 280777000, 1474749000, 12983000, 376630000, 370783000, 428723000, 17645691000, 25933000, 740748000, 2114209000,
  722322000, 1014081000, 675058000, 395662000, 705733000, 1481722000, 670157000, 434182000, 2618038000, 993636000, 1060322000, 914505000,
  1341969000, 419572000, 360547000, 5323841000, 2040548000, 1837353000, 727243000, 545584000, 3222560000, 655015000, 690124000, 3651121000,
  812592000, 538632000, 1160032000, 4676551000, 930807000, 721251000, 1100750000, 463075000, 1159209000, 2084971000, 1053885000, 739907000,
  1101278000, 777419000, 211265000, 2033420000, 468679000, 295168000, 646562000, 3014850000, 1120350000, 2201261000, 948414000, 4086271000,
  844567000, 804385000, 388964000, 757941000, 123600000, 553164000, 2552091000, 1886374000, 734379000, 769349000, 617483000, 1217302000,
  372218000, 3076676000, 1377835000, 868528000, 185813000, 471158000, 3687156000, 474529000, 650334000, 222468000, 1295679000, 3452770000,
  1484215000, 1271685000, 682202000, 2728831000, 1082002000, 530565000, 1807780000, 1036682000, 691568000, 7790430000, 1813438000, 856990000,
  8249280000, 1500179000, 1557716000, 4602147000, 1934809000, 2070385000, 4010338000, 3136859000, 1738317000, 1503256000, 453755000, 2025155000,
  932967000, 465077000, 10498126000, 1520477000, 1821181000, 2035491000, 6718040000, 2886124000, 2337418000, 1942021000, 1729381000, 785741000,
  2131350000, 771252000, 508469000, 541528000, 398207000, 6919745000, 789012000, 960622000, 3702715000, 889811000, 1664215000, 983670000,
  9329832000, 10893624000, 10353689000, 5188978000, 5710280000, 348214000, 1726886000, 557299000, 243445000, 298908000, 3298894000, 1529634000,
  1044394000, 746958000, 4172170000, 1709558000, 1321559000, 902724000, 2103138000, 2879511000, 1487283000, 710692000, 2044270000, 432449000,
  274881000, 565589000, 183943000, 704757000, 3491751000, 1364419000, 535989000, 1096747000, 8619429000, 3278279000, 2512903000, 985008000,
  2413031000, 3791369000, 2554384000, 1458327000, 1320714000, 2650250000, 4599724000, 2381666000, 1281011000, 2075330000, 1809152000, 495209000,
  1199563000, 362372000, 6954083000, 5265606000, 5442462000, 1881731000, 51429822000, 2410028000, 858490000, 963904000, 727057000, 13831211000,
  14849471000, 11430560000, 2992642000, 38624998000, 351966000, 2821843000, 3420537000, 85509000, 53513000, 33347000, 55334000, 171822000,
  5992505000, 115709000, 243891000, 30188456000, 393610000, 253010000, 974640000, 36397028000, 0, 356511000, 254902000, 1454621000,
  18452470000, 644055000, 293166000, 178805000, 3306335000, 1900955000, 1757485000, 1411715000, 557814000, 343930000, 349153000, 214075000,
  2597582000, 3197445000, 1472524000, 1388211000, 3854427000, 259004000, 153601000, 141289000, 1228544000, 871108000, 726227000, 119586000,
  73512000, 376623000, 963692000, 370777000, 15886066000]

def col19 : List Nat := [
  0, 1831867000, 1245107000, 13311167000, 267036000, 7067628000, 5256947000, 4371054000, 80119470000, 3478000, 0, 749382000,
  867806000, 19430723000, 4628229000, 3795375000, 143639458000, 351816000, 0, 13467652000, 77587000, 13487054000, 408666000, 57812000,
  695908000, 79579000, 128129000, 267388000, 145275000, 874061000, 3087015000, 66526354000, 18043000, 0, 333082000, 1656972000,
  9165472000, 1004894000, 716989000, 1634899000, 3448211000, 295670000, 6120445000, 37339000, 3102567000, 1120281000, 16571174000, 20556000,
  82063000, 318241000, 2455050000, 13358000, 544143000, 215219000, 23944495000, 83874000, 1032432000, 245134000, 125710000, 250804000,
  14438014000, 2540000, 920273000, 708918000, 5338782000, 2501525000, 1410000, 295038000, 162260000, 1166790000, 703945000, 1297646000,
  102000, 121489000, 194594000, 1854293000, 17777000, 473527000, 379250000, 737309000, 76784375000, 14817000, 929876000, 2626997000,
  1048987000, 1394297000, 971098000, 477746000, 1304982000, 2740029000, 1258687000, 743724000, 3401409000, 1271422000, 1176354000, 1094178000,
  1320955000, 477418000, 304119000, 4710864000, 2746816000, 1624576000, 637066000, 217306000, 1559410000, 267026000, 236111000, 3720802000,
  929990000, 641900000, 1034255000, 5164246000, 679341000, 676687000, 732085000, 342462000, 1353289000, 3000348000, 1683598000, 1097456000,
  1480757000, 925053000, 252095000, 1683170000, 468281000, 244687000, 662819000, 3469137000, 1394625000, 2171647000, 867922000, 3904999000,
  514323000, 655600000, 260441000, 1801901000, 441220000, 734080000, 3100194000, 2312642000, 842514000, 716547000, 918111000, 3318619000,
  743330000, 2301617000, 980706000, 478022000, 96490000, 396641000, 2112427000, 355105000, 444081000, 187723000, 1968788000, 4907441000,
  2016179000, 2041285000, 866471000, 4054664000, 1406952000, 597222000, 1795577000, 719027000, 554201000, 7328712000, 1432496000, 929079000,
  10310405000, 1759094000, 1778382000, 2794454000, 1107464000, 841585000, 6984125000, 5047344000, 3541722000, 3074564000, 2683696000, 5819102000,
  3496569000, 1667407000, 11554941000, 2347021000, 2529203000, 2320148000, 6503492000, 2396372000, 2089117000, 1762110000, 1224400000, 364999000,
  1374198000, 640771000, 198617000, 222978000, 340176000, 6247583000, 716959000, 819783000, 5307517000, 1394566000, 2527991000, 1661623000,
  10321708000, 12257988000, 10205163000, 5447408000, 5305981000, 366738000, 3189379000, 495124000, 230803000, 292512000, 2414289000, 1398895000,
  766196000, 547644000, 3267839000, 843117000, 847988000, 446503000, 3147993000, 4336782000, 2008227000, 959174000, 2576518000, 457980000,
  402928000, 819658000, 145643000, 1150893000, 3098178000, 1439264000, 601478000, 940834000, 7557810000, 2494156000, 2707132000, 1076801000,
  2589667000, 4914083000, 2722018000, 1832060000, 1358944000, 3587908000, 5562262000, 2347274000, 1634690000, 2366816000, 1831904000, 490341000,
  1138554000, 336047000, 7067602000, 7676359000, 5256873000, 1839781000, 78995970000, 749460000, 173726000, 336623000, 145341000, 4628181000,
  12402359000, 3795395000, 869952000, 144276479000, 855388000, 10307162000, 13503453000, 57797000, 46081000, 24933000, 39291000, 79502000,
  5945770000, 128141000, 158990000, 70245401000, 859580000, 481866000, 2042136000, 65379248000, 0, 342340000, 214259000, 997361000,
  25202562000, 624495000, 192142000, 136441000, 2247907000, 1399768000, 1601699000, 707363000, 380201000, 319522000, 390010000, 189988000,
  2630221000, 2249983000, 1622363000, 1125105000, 33495102000, 293925000, 155502000, 114505000, 1171861000, 702025000, 751581000, 121487000,
  82561000, 473505000, 1586273000, 379251000, 76549537000]

def col20 : List Nat := [
  0, 1705000000, 1478120000, 12805211000, 183560000, 4681008000, 4643176000, 3489926000, 90051208600, 3153000, 0, 177552000,
  243847000, 7615063000, 1102187000, 777303000, 121545875000, 151192000, 0, 14898989000, 75819000, 16740039000, 492629000, 14901000,
  610650000, 17395000, 32871000, 137201000, 191641000, 1030879000, 2010299000, 74652602000, 24273000, 0, 616455000, 1544194000,
  14901001000, 1341930000, 1305365000, 2678309000, 3381083000, 686219000, 21539707000, 102588000, 5774541000, 1947348000, 43163371000, 82845000,
  46715000, 233010000, 2598606000, 9653000, 368436000, 173501000, 30184353000, 69363000, 786590000, 205880000, 125549000, 169338000,
  24831646000, 5677000, 839360000, 750115000, 4609425000, 2689072000, 1412000, 526113000, 392693000, 2559251000, 2041832000, 2418004000,
  464000, 159291000, 113831000, 5091289000, 19337000, 537221000, 335975000, 992685000, 115188844000, 4140000, 1184073000, 4590621000,
  1273512000, 1578751000, 1561853000, 569007000, 475391000, 929219000, 337929000, 255898000, 3627437000, 1699529000, 1464146000, 1205029000,
  2449961000, 799383000, 527201000, 5299266000, 1893024000, 1706852000, 676356000, 180187000, 2371919000, 375056000, 312707000, 2541250000,
  809692000, 466469000, 1093193000, 6561095000, 704518000, 798320000, 919383000, 319732000, 845424000, 2355671000, 985981000, 783838000,
  1083322000, 505428000, 255352000, 1489693000, 335646000, 209637000, 359105000, 3716980000, 1705775000, 2272809000, 398913000, 1981596000,
  223252000, 321450000, 116366000, 2383885000, 655229000, 448499000, 1997055000, 1074179000, 395452000, 301273000, 415648000, 1693832000,
  375502000, 2843347000, 732720000, 516838000, 65908000, 325054000, 2620069000, 420850000, 545864000, 180178000, 1637295000, 3645038000,
  1593566000, 1703401000, 759042000, 4833132000, 1484860000, 629029000, 2457831000, 906930000, 677655000, 9493982000, 1478699000, 854122000,
  9568691000, 1533916000, 1934408000, 2158905000, 745015000, 475821000, 5122169000, 3102628000, 2670763000, 2087570000, 925494000, 5591514000,
  1511915000, 1079831000, 14201107000, 2495404000, 3434744000, 2707215000, 5058283000, 1479944000, 1566693000, 1833200000, 660993000, 331521000,
  1517338000, 567389000, 257721000, 283274000, 171172000, 6426002000, 542117000, 725454000, 4107611000, 1074708000, 1998942000, 880562000,
  8663486000, 10921318000, 8313906000, 4705501000, 3735206000, 455537000, 2972320000, 498350000, 346661000, 333146000, 2919325000, 1520800000,
  816010000, 583080000, 3722734000, 973914000, 973057000, 370019000, 4177158000, 6469128000, 2898822000, 704223000, 1707151000, 227750000,
  252142000, 435618000, 119772000, 678507000, 1290412000, 520048000, 402020000, 628853000, 4172671000, 1642622000, 1869606000, 656562000,
  1733632000, 3959453000, 1891804000, 1288661000, 824010000, 3056580000, 5414511000, 2539893000, 1809045000, 2247007000, 1705035000, 479159000,
  946723000, 282847000, 4681021000, 6267525000, 4643133000, 1833871000, 90250396300, 177544000, 42421000, 67934000, 27606000, 1102188000,
  4705667000, 777306000, 268015000, 122943584000, 648875000, 11775349000, 16510429000, 14901000, 10513000, 9251000, 5252000, 17396000,
  2617142000, 32870000, 56625000, 102628543600, 1034825000, 303842000, 1436789000, 73680629000, 0, 574713000, 391146000, 1394997000,
  32309421000, 366167000, 105541000, 63654000, 1406928000, 875214000, 1032771000, 412968000, 837449000, 313682000, 475927000, 251285000,
  3058159000, 2746463000, 1843501000, 1554718000, 54294997000, 525958000, 276276000, 226013000, 2561879000, 2043552000, 1459701000, 159303000,
  109149000, 537222000, 1720584000, 335980000, 115405851000]

def col21 : List Nat := [
  0, 1082354000, 1492687000, 29062022000, 104969000, 3210296000, 2280779000, 2396387000, 93493906800, 2248000, 0, 104148000,
  89848000, 27228280000, 344975000, 264884000, 98568218600, 108167000, 0, 14386228000, 75818000, 13655075000, 471711000, 52416000,
  19015300000, 81201000, 118842000, 330069000, 217999000, 563343000, 1412269000, 82823488000, 29114000, 0, 731564000, 1514910000,
  33068531000, 1791383000, 1096029000, 2364832000, 2899181000, 1471324000, 26286926000, 135939000, 4446433000, 1745948000, 49996856000, 150986000,
  106508000, 127548000, 12960730000, 18051000, 888344000, 481789000, 57466312000, 113297000, 2852138000, 527485000, 374634000, 423335000,
  27741635000, 24292000, 1129220000, 1354793000, 4480553000, 2379886000, 2031000, 573439000, 305031000, 1978552000, 1572102000, 1714139000,
  572000, 152386000, 123525000, 26334928000, 18445000, 437207000, 263607000, 891712000, 99250438680, 3040000, 901149000, 3869404000,
  738033000, 820108000, 1282025000, 368776000, 650249000, 1878369000, 468343000, 396225000, 4201570000, 2019545000, 1859570000, 1409191000,
  3847852000, 1008509000, 490420000, 5952728000, 1907745000, 1881836000, 764480000, 346950000, 4381172000, 738758000, 636657000, 4017942000,
  930405000, 605135000, 1427778000, 8522025000, 895459000, 964514000, 1622409000, 429283000, 499088000, 994997000, 490736000, 437314000,
  347986000, 289084000, 358972000, 1841181000, 313680000, 302823000, 498854000, 4735670000, 4191538000, 2251702000, 305657000, 1934473000,
  233962000, 384132000, 180629000, 1935574000, 478758000, 439082000, 1548925000, 656567000, 392008000, 288444000, 591045000, 2287418000,
  551766000, 2723245000, 733076000, 582664000, 107254000, 935772000, 6420128000, 855481000, 2071145000, 437992000, 1250238000, 3251812000,
  1609507000, 918168000, 655333000, 5993967000, 2130517000, 846344000, 4141872000, 1623189000, 1011644000, 11313006000, 2029344000, 1183388000,
  9936847000, 1978258000, 1526600000, 2862965000, 740747000, 522844000, 4663628000, 2922600000, 2117958000, 1594729000, 399538000, 3073496000,
  781768000, 536203000, 19119298000, 3729140000, 4460566000, 2785469000, 3992788000, 1235764000, 1414199000, 1210538000, 581132000, 505319000,
  1448036000, 401617000, 305458000, 244942000, 300532000, 8328750000, 890869000, 1001221000, 2581906000, 684024000, 1319707000, 490918000,
  7395814000, 11044616000, 8973003000, 5035012000, 3860224000, 292178000, 2058077000, 492264000, 334067000, 231345000, 3697712000, 1771574000,
  975989000, 673171000, 6423466000, 3142033000, 1687234000, 936301000, 1551670000, 2440863000, 1152609000, 471919000, 1312647000, 234321000,
  193572000, 312406000, 84686000, 1094829000, 1860500000, 697613000, 627661000, 916778000, 5487025000, 3291748000, 2897808000, 2613313000,
  955819000, 2420576000, 1473991000, 654077000, 455955000, 3315897000, 6600164000, 2803292000, 2350610000, 2494923000, 1082368000, 485715000,
  641671000, 240049000, 3210256000, 3581211000, 2280805000, 2547586000, 93637025800, 104148000, 18011000, 30690000, 19932000, 344976000,
  1625894000, 264885000, 212218000, 98696762100, 818424000, 8950219000, 13524472000, 52415000, 46464000, 26424000, 37383000, 81210000,
  14216995000, 118823000, 12941678000, 75291574000, 571205000, 286825000, 1056971000, 82329679000, 0, 691690000, 516532000, 1778642000,
  36475495000, 468704000, 158756000, 74502000, 1834139000, 1278137000, 1306395000, 819050000, 590355000, 269982000, 296228000, 142785000,
  2038452000, 771961000, 1496072000, 1372764000, 58472790000, 572796000, 414982000, 189622000, 1977828000, 1573967000, 2662244000, 152389000,
  103438000, 437210000, 1993783000, 263611000, 99211696030]

def col22 : List Nat := [
  0, 820206000, 1525730000, 36121705000, 124164000, 2751469000, 1664262000, 1769367000, 93624579200, 148017000, 0, 174583000,
  385948000, 41167540000, 1492916000, 1051825000, 95643130000, 300852000, 0, 14781846000, 57945000, 10750735000, 324299000, 76026000,
  59141069000, 175160000, 485411000, 214850000, 1031446000, 648421000, 1815336000, 81108971000, 177137000, 0, 390577000, 1443922000,
  26922201000, 1296389000, 830498000, 1188952000, 3238627000, 2192850000, 15780371000, 209059000, 3573782000, 2572970000, 44859852000, 428679000,
  216811000, 158593000, 13701150000, 25919000, 1566394000, 933715000, 80108269000, 217096000, 8966500000, 901728000, 834213000, 1087757000,
  18093331000, 161113000, 1010802000, 1815199000, 3719865000, 3024331000, 323280000, 620202000, 341920000, 3005216000, 1789265000, 1623059000,
  1527040000, 98861000, 70130000, 26797792000, 9496000, 293614000, 210078000, 619528000, 95485921600, 542137000, 809983000, 3914590000,
  1672838000, 821177000, 1142328000, 534663000, 1318304000, 4201205000, 1881554000, 1064618000, 3817769000, 2997628000, 3421199000, 1469274000,
  3039141000, 693005000, 329300000, 5449083000, 1435487000, 2224644000, 612249000, 553037000, 6411151000, 1237999000, 1167313000, 6734720000,
  1331599000, 1057875000, 1759052000, 6700429000, 1266294000, 712135000, 1354542000, 384800000, 1152943000, 1789744000, 985916000, 1055922000,
  687672000, 635417000, 764498000, 3293857000, 645212000, 1007493000, 852364000, 3310609000, 2289343000, 1679407000, 905789000, 3770711000,
  430863000, 898524000, 377365000, 3423893000, 589275000, 565554000, 3095278000, 1168460000, 738718000, 408029000, 916748000, 3917171000,
  905765000, 4089537000, 717546000, 731668000, 530544000, 725886000, 4536081000, 1249518000, 1401002000, 427514000, 1486257000, 5197048000,
  3158073000, 1424862000, 921281000, 6697665000, 3577421000, 921158000, 5892464000, 3400536000, 1746034000, 7212585000, 1972479000, 1128640000,
  9373467000, 3873817000, 1623556000, 4407913000, 1504266000, 1009336000, 5541062000, 5452670000, 2291695000, 1916511000, 456476000, 2438279000,
  970723000, 505398000, 17247409000, 4476060000, 3508391000, 2967817000, 4151959000, 1663520000, 1516519000, 1131291000, 692335000, 259097000,
  686695000, 486597000, 261140000, 241922000, 395658000, 9736930000, 1563910000, 1515495000, 2429898000, 650914000, 1145089000, 467253000,
  3238230000, 5046444000, 4823834000, 2493591000, 1599231000, 918277000, 3783952000, 1319925000, 738703000, 429891000, 4759197000, 3224405000,
  1117416000, 879134000, 4894610000, 2642024000, 1455331000, 747335000, 703623000, 1408252000, 678929000, 935509000, 2628669000, 548474000,
  490149000, 738696000, 186197000, 1393733000, 3248069000, 1211681000, 920762000, 1626701000, 6555620000, 4789263000, 2673868000, 3919968000,
  1222698000, 3443018000, 2154221000, 962383000, 543614000, 4076250000, 6685233000, 4303822000, 3493822000, 3375327000, 820210000, 383713000,
  618956000, 235140000, 2751418000, 3716697000, 1664298000, 3128139000, 93629026400, 174580000, 31970000, 69245000, 36458000, 1492926000,
  2482330000, 1051823000, 1709129000, 95610932600, 615768000, 5630281000, 10729603000, 76024000, 270444000, 113366000, 241452000, 175088000,
  12198816000, 485301000, 11880451000, 72856759000, 698158000, 397818000, 1545564000, 81019575000, 0, 378307000, 300100000, 1273634000,
  24757675000, 696426000, 176028000, 102892000, 2376004000, 1250788000, 1952383000, 1000380000, 765489000, 303245000, 383059000, 197528000,
  2702734000, 975159000, 1836389000, 1785106000, 73032767000, 621638000, 499585000, 205335000, 2996974000, 1787533000, 3972781000, 98861000,
  55818000, 293612000, 1692273000, 210074000, 95414180100]

def col23 : List Nat := [
  0, 679587000, 1689815000, 27953041000, 70006000, 2019307000, 1952379000, 1695162000, 91479506100, 17264283000, 0, 441536000,
  1731501000, 33991161000, 5057987000, 3153491000, 95018050600, 143963366000, 0, 17442577000, 74166000, 12983187000, 12875339000, 85360000,
  71112144000, 276545000, 438295000, 449158000, 35283964000, 797464000, 2593739000, 77125370000, 16863635000, 0, 377839000, 1923991000,
  34563800000, 1505299000, 786041000, 1260022000, 52974361000, 1793401000, 19143533000, 205740000, 3821704000, 2845338000, 34602093000, 2817485000,
  417106000, 289572000, 18380026000, 51596000, 2273189000, 1384425000, 79211576000, 518112000, 12755809000, 1887598000, 2092201000, 1443545000,
  19180232000, 14242994000, 1115931000, 1755370000, 4033647000, 2421393000, 25092519000, 924797000, 361736000, 3981615000, 2432497000, 1975205000,
  35727582000, 291043000, 169331000, 24324615000, 15273000, 810139000, 379090000, 986997000, 93899159400, 35755621000, 818358000, 13458934000,
  2696995000, 909934000, 1201453000, 717893000, 1598913000, 24761361000, 2440617000, 1294347000, 16446903000, 4111247000, 4901606000, 1440982000,
  14462521000, 932122000, 401387000, 14570335000, 1625125000, 1869476000, 567849000, 346680000, 5870745000, 1107452000, 993690000, 16728813000,
  1019646000, 883449000, 1504755000, 35173567000, 1300886000, 617819000, 1198427000, 473221000, 1168062000, 15856503000, 989140000, 725904000,
  858574000, 423037000, 398725000, 10713806000, 833114000, 302815000, 1094825000, 14785282000, 4020865000, 1613010000, 444636000, 4661703000,
  268120000, 346309000, 171208000, 11707756000, 964640000, 1014627000, 19221254000, 4186315000, 1212862000, 894491000, 1020312000, 18642423000,
  984269000, 13884708000, 1587016000, 1313422000, 857719000, 946248000, 31141539000, 1666488000, 1778573000, 656080000, 1022027000, 6545710000,
  2125573000, 834247000, 592967000, 20432693000, 3383375000, 850697000, 10150021000, 2039426000, 1110385000, 19242432000, 2508514000, 1629791000,
  25013989000, 3681295000, 2160382000, 9171533000, 1132676000, 1030768000, 68192224000, 7235482000, 3644120000, 3148298000, 992012000, 21614044000,
  1751604000, 919154000, 36037195000, 5235866000, 3406907000, 3330996000, 8729497000, 1749970000, 1537969000, 1226537000, 573234000, 206828000,
  18462665000, 502713000, 159259000, 146188000, 513140000, 13309841000, 1772251000, 1752075000, 28379901000, 1006992000, 1506003000, 541039000,
  2171929000, 18638419000, 3375269000, 1599072000, 1097848000, 1704642000, 9245467000, 2252331000, 1384153000, 876801000, 21882967000, 3865783000,
  1798739000, 1334092000, 12992858000, 2883732000, 1268331000, 897216000, 436729000, 4281539000, 453892000, 1568415000, 36753265000, 1039921000,
  995553000, 1307472000, 284098000, 3428351000, 15087172000, 2717165000, 1648890000, 2309715000, 47786273000, 3841475000, 3161232000, 3596978000,
  2255964000, 24549493000, 3756847000, 1503169000, 715199000, 4791763000, 33748202000, 4098117000, 3450634000, 3259667000, 679611000, 364813000,
  426856000, 295948000, 2019230000, 2771796000, 1952412000, 2479018000, 91463867900, 441518000, 103749000, 195159000, 96542000, 5057771000,
  8985779000, 3153475000, 9008461000, 95025820200, 712015000, 5013688000, 12951871000, 85371000, 367674000, 62197000, 478534000, 276679000,
  12116518000, 438497000, 12201715000, 80414307000, 847866000, 519148000, 1937456000, 77139429000, 0, 391852000, 314013000, 1503822000,
  20323452000, 602523000, 154830000, 100210000, 2262772000, 1405628000, 2488558000, 859092000, 953569000, 444541000, 642692000, 273025000,
  3495630000, 1811435000, 2365905000, 1721850000, 80140943000, 926790000, 495950000, 225492000, 3949159000, 2419423000, 2124171000, 291038000,
  108849000, 810134000, 2570653000, 379084000, 93874875700]

def col24 : List Nat := [
  0, 866049000, 1899704000, 31600779000, 100408000, 5994629000, 2916543000, 3057330000, 90345135000, 53731016000, 0, 234572000,
  2016702000, 26688586000, 4680921000, 1242171000, 94912479200, 127559455000, 0, 20859573000, 88504000, 14441680000, 14388453000, 460565000,
  44912966000, 2220343000, 1061403000, 1567444000, 49284522000, 966503000, 5907560000, 71309263000, 38483996000, 0, 617715000, 2043617000,
  40523949000, 6198281000, 1233669000, 2140015000, 71605405000, 2260231000, 21463259000, 331817000, 5559603000, 3145357000, 22990857000, 7942003000,
  776195000, 381299000, 21317943000, 77891000, 13828973000, 2149664000, 75963131000, 532873000, 13999606000, 8563813000, 3096586000, 1460927000,
  22662874000, 21545213000, 802317000, 1727591000, 7331983000, 1977117000, 34732397000, 734640000, 363255000, 7236539000, 2417267000, 1891029000,
  46634140000, 77856000, 145419000, 13323892000, 12046000, 5449237000, 435316000, 394966000, 98763435300, 93389459200, 1111560000, 27008036000,
  2305852000, 1008404000, 1494888000, 699580000, 1886331000, 58449016000, 2643030000, 1616504000, 94916440400, 3445637000, 2549531000, 1102965000,
  46253005000, 942451000, 309752000, 38517493000, 1599368000, 2128708000, 583763000, 297477000, 10505011000, 1214969000, 1203939000, 28127431000,
  1480013000, 1091312000, 1949142000, 77567423000, 1408008000, 935579000, 1668189000, 532457000, 1013337000, 40135060000, 942388000, 777168000,
  932089000, 495269000, 585224000, 38956395000, 692551000, 272598000, 1136967000, 34428119000, 7653416000, 1984741000, 312530000, 16659300000,
  333115000, 622413000, 224083000, 18553090000, 1193705000, 1665605000, 30412148000, 3970266000, 1799684000, 1175607000, 1216707000, 54982972000,
  1278928000, 67881480000, 1932207000, 1177558000, 683368000, 743987000, 87031708000, 1265604000, 1181624000, 344290000, 1386591000, 32524341000,
  2093636000, 1031701000, 615759000, 64524188000, 3214967000, 694147000, 24391940000, 2083546000, 1157907000, 66006758000, 2518448000, 1502359000,
  74940962000, 2222335000, 2278535000, 31967309000, 1851772000, 1758138000, 101124489900, 4558750000, 2900148000, 2912673000, 516898000, 168051638000,
  839903000, 325108000, 58903989000, 4458861000, 3216017000, 3112449000, 13511400000, 967565000, 758996000, 716856000, 363752000, 359038000,
  103179436200, 1357735000, 250704000, 366707000, 812415000, 20625447000, 2093802000, 1853372000, 72241176000, 1262703000, 2909860000, 538401000,
  2244165000, 30378942000, 2901914000, 1642810000, 1156633000, 2468234000, 41004625000, 2768597000, 886827000, 737828000, 48039307000, 2580897000,
  1627653000, 966596000, 33320613000, 1479297000, 1121741000, 570092000, 716639000, 19066380000, 707921000, 2135633000, 46687742000, 1334500000,
  1155083000, 1745052000, 331882000, 4653114000, 49393190000, 4597912000, 1755423000, 883183000, 85096129000, 1363073000, 1280983000, 755593000,
  2947380000, 83344763000, 4147491000, 2188188000, 1064496000, 4658533000, 69926516000, 3212271000, 3735608000, 3435687000, 866024000, 385271000,
  468033000, 273204000, 5994549000, 5987570000, 2916606000, 5567596000, 90336373900, 234569000, 86407000, 100360000, 48744000, 4680974000,
  8360367000, 1242168000, 6540997000, 94914975400, 705922000, 6773282000, 14419342000, 460711000, 1275992000, 251555000, 1185127000, 2220218000,
  16621762000, 1061299000, 16762959000, 80532372000, 972066000, 530627000, 3112569000, 71350594000, 0, 619538000, 325237000, 6221971000,
  23525961000, 459419000, 129538000, 96185000, 2948853000, 1396085000, 2146075000, 865150000, 1565991000, 624462000, 762808000, 435585000,
  8964104000, 3130793000, 4043463000, 2200596000, 75057791000, 735445000, 400945000, 221163000, 7208967000, 2401261000, 1707785000, 77857000,
  50962000, 5449242000, 1986221000, 435306000, 98749685600]

def col25 : List Nat := [
  0, 1546088000, 2814124000, 15664845000, 222882000, 19120655000, 9240617000, 5211367000, 91709279200, 89342390000, 0, 435598000,
  4016722000, 20784546000, 11371678000, 4302449000, 94477954900, 97474834100, 0, 19440863000, 74536000, 11234323000, 9985069000, 839570000,
  31208117000, 4374712000, 3510506000, 1654147000, 46475435000, 1226904000, 12352184000, 69310725000, 63641311000, 0, 714442000, 2279480000,
  32372509000, 12847629000, 7254375000, 2200499000, 77583242000, 2519475000, 17717615000, 339826000, 6128812000, 3256228000, 12342532000, 9290259000,
  843311000, 442582000, 22004164000, 73739000, 26644351000, 5643944000, 70851480000, 807934000, 14758338000, 20456299000, 3783813000, 2223409000,
  24026873000, 22360544000, 1313014000, 1699784000, 15490042000, 2246357000, 66890709000, 901872000, 387716000, 18809273000, 7360941000, 2126549000,
  69036179000, 68668000, 131951000, 13287732000, 11213000, 19057461000, 1616439000, 327324000, 100888385310, 99932449642, 1823319000, 43248234000,
  3408506000, 1357079000, 7298223000, 1174016000, 1740546000, 64950755000, 2135458000, 6012134000, 109827113600, 2701195000, 2122476000, 11126507000,
  61967875000, 1686950000, 271472000, 53374561000, 1194414000, 9460936000, 521636000, 376483000, 15588395000, 1478177000, 3349243000, 46100365000,
  8273591000, 858951000, 1792418000, 74941867000, 1354321000, 823399000, 15330366000, 544106000, 1712723000, 62294690000, 1801605000, 1249412000,
  12239226000, 805340000, 1904051000, 54874597000, 1124501000, 370945000, 4591332000, 39628852000, 6785779000, 2961991000, 775565000, 53695578000,
  839654000, 10031154000, 565091000, 25349683000, 5791174000, 839800000, 45317720000, 1848122000, 2821348000, 690731000, 775415000, 60252729000,
  2894865000, 93744735000, 1498429000, 6594157000, 519488000, 801603000, 93082358700, 1855746000, 1420627000, 436810000, 2288015000, 51482806000,
  3544054000, 8287163000, 1027062000, 78114702000, 3189998000, 684257000, 58836940000, 4029700000, 4977106000, 81458689000, 1991500000, 1348649000,
  85408551000, 1724342000, 12230945000, 50067288000, 14992236000, 3275334000, 79074469000, 3044832000, 1940012000, 13417043000, 264080000, 151134218000,
  599465000, 891807000, 63772405000, 4805473000, 3114741000, 2669148000, 31987002000, 1597549000, 1109174000, 6608564000, 656276000, 314498000,
  97979852100, 819483000, 242677000, 503416000, 1305777000, 29612837000, 2687722000, 4978662000, 87117518000, 1371727000, 24248428000, 699009000,
  2675741000, 40705188000, 3365916000, 12225423000, 1395000000, 1957618000, 67240656000, 1625619000, 785407000, 485453000, 66278692000, 2581613000,
  15555748000, 864890000, 50705341000, 1527046000, 2636383000, 333657000, 2443019000, 31031387000, 14864245000, 1618995000, 46736488000, 757528000,
  780809000, 11649716000, 190581000, 3695822000, 85623502000, 39853662000, 1426441000, 637705000, 94496979700, 1107835000, 17678903000, 860975000,
  2001792000, 82194589000, 3962263000, 10546436000, 1134576000, 4532594000, 67199973000, 2443565000, 3228737000, 22213208000, 1545999000, 737410000,
  1052197000, 461613000, 19120801000, 11760546000, 9240668000, 9880556000, 91698773000, 435600000, 124750000, 270899000, 54119000, 11371794000,
  20624484000, 4302455000, 17529264000, 94477040200, 655058000, 10467156000, 11189453000, 839879000, 2202832000, 273483000, 2072262000, 4372749000,
  17584702000, 3508722000, 15037247000, 68501181000, 1223580000, 515316000, 6815870000, 69302807000, 0, 652867000, 356356000, 12819676000,
  27720166000, 649270000, 148598000, 129500000, 5162088000, 2511781000, 3701178000, 1158616000, 2713786000, 1681904000, 1204928000, 1264561000,
  16420659000, 7213163000, 8974255000, 5215737000, 64881697000, 901823000, 413054000, 255049000, 18885265000, 7415323000, 2218822000, 68667000,
  48710000, 19057490000, 1399322000, 1616438000, 100882005360]

def col26 : List Nat := [
  0, 1366685000, 3371531000, 37743369000, 179982000, 19774817000, 12004412000, 5366434000, 91749802000, 89311693000, 0, 756659000,
  4918163000, 13614298000, 20785869000, 16115633000, 94436706200, 93953893500, 0, 22000667000, 63686000, 8071719000, 8010585000, 536483000,
  35657734000, 8271493000, 4866644000, 1522111000, 44794749000, 1226518000, 16172969000, 71273013000, 70933891000, 0, 508906000, 2367048000,
  36260811000, 17121410000, 18512765000, 2333327000, 81204670000, 3035108000, 19654885000, 365292000, 6492302000, 4107363000, 6054275000, 5847101000,
  1863338000, 805467000, 32983586000, 137948000, 24738022000, 15187195000, 64934031000, 310003000, 13186157000, 16021943000, 5122067000, 1887237000,
  22359859000, 21703180000, 1505504000, 1793389000, 17824425000, 3075750000, 80747515000, 524512000, 210746000, 20679105000, 9801929000, 1312656000,
  76932648000, 118272000, 176880000, 40321808000, 14178000, 27790623000, 5520559000, 525147000, 97696356000, 90188374400, 993362000, 69915341000,
  1159474000, 543098000, 10865853000, 753420000, 1800565000, 78058939000, 2280351000, 28767278000, 84278011000, 2310602000, 1743550000, 33637763000,
  67486358000, 11717170000, 568900000, 73995048000, 1339814000, 34818353000, 900349000, 449875000, 17242721000, 1736576000, 4353804000, 64430799000,
  30133344000, 1351105000, 2821357000, 85656740000, 1340091000, 863914000, 83886236000, 557869000, 1320422000, 77912763000, 1339353000, 903433000,
  19656480000, 944472000, 1109868000, 68966466000, 1365460000, 276438000, 31574025000, 66320643000, 6368012000, 3821652000, 1107721000, 64009520000,
  1069552000, 31163325000, 932760000, 28939328000, 11949724000, 632229000, 59785942000, 2207472000, 7995516000, 785763000, 1627412000, 64038066000,
  25475117000, 91936000200, 1375275000, 17468988000, 673685000, 636915000, 95186586200, 1836578000, 1952635000, 8816558000, 1183436000, 68242750000,
  2942935000, 14358814000, 1191139000, 80360034000, 3626637000, 1789274000, 80654364000, 6250263000, 18600330000, 85055154000, 3391512000, 1420657000,
  74968909000, 2106814000, 49768367000, 64946236000, 15581173000, 2052697000, 70423436000, 1858939000, 889597000, 37377780000, 292374000, 98783977300,
  903942000, 9619385000, 72264688000, 3704315000, 2641137000, 2940931000, 65382002000, 1833413000, 1752403000, 33687610000, 1037500000, 108263000,
  76514417000, 428441000, 180913000, 8983210000, 1920228000, 30644022000, 2683501000, 9065185000, 84367320000, 686917000, 31791770000, 419109000,
  2560095000, 67113609000, 3145926000, 36362370000, 4078461000, 2094062000, 70110802000, 1220720000, 628936000, 358656000, 89857902000, 2263643000,
  73695080000, 1631987000, 60984047000, 1744039000, 16460061000, 610357000, 5823703000, 77775158000, 58973675000, 1253259000, 74346787000, 564286000,
  616455000, 19471377000, 168660000, 2428361000, 86491275000, 61530794000, 1274384000, 3003675000, 95263737300, 2726478000, 86809801000, 3457471000,
  1086255000, 72106254000, 2708514000, 13878752000, 1936617000, 3998778000, 68964328000, 2287007000, 2851081000, 42318090000, 1366646000, 1147876000,
  1089916000, 523581000, 19774974000, 14505010000, 12004444000, 9056629000, 91737558800, 756655000, 84719000, 237765000, 53590000, 20785869000,
  20959721000, 16115692000, 21142949000, 94432053500, 563989000, 12267909000, 8037423000, 536360000, 1389901000, 257549000, 1582443000, 8272662000,
  12333933000, 4866208000, 8830375000, 62189208000, 1214548000, 587919000, 11609137000, 71296145000, 0, 472827000, 283661000, 17128368000,
  32079273000, 633574000, 217218000, 237098000, 9576804000, 4490912000, 5214743000, 2020971000, 2145703000, 1858319000, 1165199000, 1226753000,
  22483900000, 11968427000, 10489064000, 6117894000, 60745876000, 523582000, 265596000, 127200000, 20761409000, 9853376000, 1547560000, 118265000,
  77722000, 27790666000, 1878520000, 5520523000, 97702530100]

def col27 : List Nat := [
  0, 958937000, 3279371000, 40803022000, 161286000, 14663603000, 10260230000, 3340397000, 92595913100, 91788242700, 0, 471929000,
  7461492000, 17165992000, 24014979000, 17713831000, 93209694300, 93098029900, 0, 21034657000, 66210000, 7886654000, 7881999000, 750667000,
  34643227000, 11428340000, 6844626000, 2364909000, 39907507000, 707660000, 7685479000, 68595634000, 67944895000, 0, 611439000, 3130771000,
  62996188000, 21396568000, 22603483000, 3046970000, 78562689000, 3153119000, 20850975000, 276070000, 6046971000, 4949969000, 3218742000, 3092761000,
  1242082000, 695185000, 18095365000, 176102000, 12256440000, 7183832000, 64208273000, 318438000, 18521074000, 15807456000, 7768363000, 2730786000,
  16820002000, 16281934000, 1438227000, 1513053000, 12044303000, 3429985000, 80830083000, 564890000, 232494000, 16736989000, 7320826000, 1254336000,
  83368616000, 57685000, 302923000, 37942633000, 10555000, 17821947000, 5320775000, 352987000, 97293163500, 93843605400, 1068666000, 77000318000,
  1622410000, 634327000, 32839376000, 1725020000, 5037095000, 84330921000, 2846099000, 55237633000, 84773266000, 1991576000, 1598710000, 46445450000,
  73655067000, 36542055000, 3231554000, 85234683000, 1570590000, 53132560000, 1838816000, 1676902000, 15464491000, 2090379000, 6035084000, 65818147000,
  40911099000, 5275722000, 5006411000, 89973850000, 1865723000, 926609000, 93512984900, 739183000, 405280000, 80629724000, 659769000, 364381000,
  31327958000, 1957411000, 856161000, 75980710000, 1196131000, 307179000, 48020907000, 87557665000, 7108882000, 15869282000, 1688711000, 64173060000,
  949746000, 50194875000, 960671000, 29706169000, 17653686000, 1228593000, 55347218000, 2876627000, 18218554000, 1578936000, 4963975000, 72114559000,
  47041497000, 80876714000, 1370040000, 28766970000, 469019000, 439929000, 96316374800, 1875839000, 1328437000, 11178468000, 581159000, 74468239000,
  2739973000, 29831870000, 2607853000, 86542136000, 3155017000, 5154954000, 73869309000, 9423328000, 36316079000, 94667937300, 2949397000, 1884667000,
  72879331000, 1823257000, 60184217000, 69612944000, 31465537000, 3117438000, 85685666000, 1461502000, 739581000, 46752826000, 251131000, 88921973000,
  1108650000, 9945966000, 76976456000, 4699783000, 5112071000, 4717729000, 68599336000, 1180558000, 1091452000, 40977690000, 1245020000, 469870000,
  66870682000, 1028908000, 746103000, 32982952000, 1788250000, 29816393000, 3031240000, 12641657000, 82384607000, 465286000, 38217844000, 472947000,
  785843000, 79417939000, 1168035000, 36472467000, 5883242000, 12766301000, 74927089000, 1454718000, 598670000, 688452000, 93854514200, 2711990000,
  82940834000, 5835108000, 70796061000, 2248997000, 34239914000, 2938194000, 4293205000, 87076747000, 73254755000, 1389014000, 79302653000, 717699000,
  1064938000, 34496027000, 301768000, 16052013000, 76798075000, 55595587000, 2562264000, 5886310000, 104303548800, 1930022000, 118363114000, 5010242000,
  699664000, 73988706000, 4472391000, 23745845000, 6434880000, 2444231000, 85468766000, 2113931000, 1710893000, 43367041000, 958901000, 1062614000,
  721533000, 647611000, 14663535000, 12998285000, 10260204000, 9131967000, 92591862100, 471919000, 201617000, 436292000, 219094000, 24014893000,
  24541494000, 17713852000, 19953665000, 93208006200, 619010000, 6858162000, 7854922000, 750652000, 2678950000, 712153000, 2881555000, 11430778000,
  14646065000, 6843897000, 13811492000, 56383047000, 717790000, 349840000, 7667775000, 68596845000, 0, 614614000, 292291000, 21419281000,
  34853613000, 917030000, 488831000, 270701000, 9927727000, 6499022000, 6307359000, 3277616000, 2494192000, 2968806000, 1105964000, 1686083000,
  28440151000, 18423276000, 16671960000, 9918109000, 56553365000, 563256000, 355336000, 166855000, 16746049000, 7317396000, 1945011000, 57681000,
  54269000, 17821985000, 3915968000, 5320755000, 97293211800]

def col28 : List Nat := [
  0, 3686673000, 4427654000, 39070865000, 88747000, 5892564000, 3990789000, 11219154000, 92075702700, 91910434200, 0, 3760522000,
  9159594000, 20587851000, 18361467000, 29546125000, 92155951600, 91987905900, 0, 19446966000, 63733000, 8225201000, 8231570000, 1536605000,
  15334733000, 13477583000, 10290326000, 2992090000, 34529343000, 1923879000, 6430069000, 61148896000, 60491473000, 0, 3956609000, 4983431000,
  47715556000, 17287956000, 12076180000, 13505855000, 75930932000, 3586664000, 21740399000, 370743000, 5747196000, 5558067000, 1886568000, 1821900000,
  2487194000, 3811958000, 16966173000, 167709000, 10617533000, 3247518000, 56220726000, 2240996000, 21255515000, 17715398000, 11686243000, 8444510000,
  18746412000, 18470114000, 6106363000, 6371608000, 7519609000, 15254789000, 77064115000, 3424655000, 803485000, 5194984000, 3170209000, 7498566000,
  79592495000, 4570683000, 1009420000, 33278339000, 20573000, 14057460000, 11999016000, 12929358000, 95557470600, 94007644200, 1833598000, 74792753000,
  1853427000, 2575110000, 64948611000, 3780467000, 7298620000, 80781248000, 3154720000, 70496767000, 83340245000, 2204161000, 12317005000, 65943999000,
  73811164000, 62249275000, 6414505000, 88714611000, 52156415000, 74613911000, 12515557000, 1294828000, 15892325000, 2008742000, 8325550000, 60109074000,
  45287068000, 7611366000, 16082280000, 87293631000, 2201230000, 36885481000, 80333336000, 2906432000, 1231696000, 78099950000, 1395754000, 5013330000,
  50231045000, 5789596000, 2891534000, 73715887000, 1315694000, 7862728000, 62913032000, 88282296000, 25897619000, 17247249000, 2912101000, 58119759000,
  1050350000, 50381851000, 1639955000, 31448069000, 24526474000, 2401108000, 44066486000, 5111700000, 26482140000, 3567932000, 7520628000, 67103603000,
  53921926000, 69473131000, 1419051000, 51479075000, 858927000, 335260000, 92590792200, 1947666000, 1696921000, 12303804000, 2619504000, 64909789000,
  6275427000, 41051703000, 21937841000, 85913618000, 2344612000, 4807434000, 62627244000, 11799787000, 47032566000, 96758597000, 2136175000, 1935975000,
  72141408000, 1263059000, 63445309000, 69528007000, 59269558000, 4025496000, 87450061000, 2173981000, 11183693000, 56407357000, 2056906000, 65021866000,
  2988834000, 38199441000, 75678937000, 13511312000, 67531119000, 11614389000, 65907270000, 1101114000, 2073272000, 48580239000, 1364363000, 1364538000,
  53461227000, 1046858000, 1841331000, 38275280000, 3546521000, 28874107000, 3503824000, 16781324000, 85656134000, 6862234000, 60415408000, 1975843000,
  789394000, 82056503000, 699384000, 52863705000, 2604213000, 15412711000, 75033792000, 1245390000, 19551364000, 1143968000, 91109100300, 3695980000,
  78374013000, 9591336000, 69278110000, 1422135000, 56106360000, 3349548000, 1604089000, 84282318000, 73348122000, 500402000, 76597997000, 446353000,
  692576000, 66445409000, 382777000, 19348166000, 74728567000, 53698586000, 4237544000, 1478252000, 106998154600, 56457540000, 117517765000, 1253351000,
  1373651000, 66648243000, 6380016000, 41310938000, 35903028000, 2634152000, 90065296500, 1551437000, 5817303000, 59833061000, 3686672000, 1681106000,
  387521000, 364047000, 5892446000, 9867206000, 3990776000, 9840697000, 92076882700, 3760776000, 1840112000, 562680000, 534194000, 18361834000,
  33850082000, 29546075000, 28913500000, 92153445400, 837086000, 4562629000, 8202774000, 1536630000, 4064233000, 582141000, 3507507000, 13474799000,
  33850369000, 10288092000, 29703247000, 50923590000, 1898409000, 348481000, 5261428000, 61087241000, 0, 3945777000, 504477000, 17269257000,
  27580038000, 9976748000, 2275841000, 425988000, 13419477000, 16527777000, 13623398000, 9616161000, 14795278000, 7362018000, 1793411000, 2418143000,
  28932276000, 16994429000, 16084699000, 13732138000, 51858718000, 3429807000, 430598000, 103729000, 5192896000, 3172745000, 2800353000, 4570683000,
  155693000, 14057370000, 6161519000, 11998950000, 95551606600]

def col29 : List Nat := [
  0, 9183126000, 5145004000, 72959622000, 303641000, 5959907000, 2902489000, 21162680000, 91419872800, 91613098200, 0, 42262359000,
  16773448000, 54600134000, 47923748000, 49044072000, 87481468000, 87395479000, 0, 21387775000, 237539000, 8604831000, 8649556000, 26471802000,
  24197555000, 30245868000, 5721736000, 26643414000, 28630980000, 8536128000, 10258119000, 52816390000, 52247375000, 0, 13308595000, 6645949000,
  58176898000, 19835752000, 9457347000, 20013861000, 72860273000, 4186724000, 21741941000, 776665000, 6549105000, 6251706000, 1465731000, 1608124000,
  24706313000, 7801222000, 39069067000, 3280255000, 31604288000, 10193482000, 48834699000, 4403353000, 19973385000, 12886672000, 9195326000, 15112296000,
  19069291000, 18859403000, 27623264000, 15651519000, 27538510000, 35605030000, 71763579000, 9132414000, 4253773000, 12637455000, 4032342000, 11403779000,
  73796607000, 23154796000, 6460361000, 55804657000, 243396000, 23022753000, 15899436000, 27938997000, 93625365400, 92966195000, 20218760000, 65777603000,
  25645801000, 18502690000, 61218274000, 7582784000, 18268649000, 72555638000, 11046010000, 68784678000, 81924376000, 16566169000, 18813976000, 74723231000,
  73460375000, 71069447000, 8457309000, 91682643400, 46568623000, 88822058000, 26095164000, 2260884000, 16872216000, 2230171000, 7806169000, 54912622000,
  48611777000, 12741427000, 20459342000, 84274080000, 18289086000, 23925384000, 81538727000, 10829841000, 5660219000, 73151542000, 6771526000, 8564303000,
  65706261000, 27698128000, 20658778000, 69873833000, 20099835000, 21670215000, 66563126000, 89077974000, 53957269000, 21451727000, 7850486000, 47096478000,
  7951130000, 40828341000, 3493729000, 31378345000, 25378598000, 7584481000, 41795445000, 11440770000, 28460760000, 7343750000, 11351909000, 62949250000,
  56441233000, 64594838000, 7998635000, 60332575000, 3261355000, 4414479000, 92115660400, 5661182000, 4661174000, 22005789000, 18970530000, 53907240000,
  37348912000, 42250676000, 56750617000, 85338161000, 10592433000, 8077327000, 58586586000, 19521397000, 54814893000, 93517480200, 21002829000, 9831032000,
  69699604000, 10194999000, 61845946000, 67044907000, 63216688000, 8178909000, 90771501800, 10810487000, 10200752000, 80744437000, 1988217000, 70557425000,
  3452796000, 65053013000, 77039789000, 92706713600, 94802607800, 12823846000, 62274113000, 4099739000, 4701573000, 54086278000, 2564331000, 6504233000,
  40943438000, 4254157000, 6646618000, 31787489000, 6563391000, 29390640000, 5335850000, 18471487000, 85590068000, 9575709000, 74910641000, 6927904000,
  3921955000, 82666438000, 5754828000, 73934824000, 5680161000, 25640025000, 72471189000, 32588919000, 33713565000, 5081234000, 90610765200, 12911894000,
  84024650000, 12158010000, 64512275000, 10898838000, 55663883000, 6570401000, 8940461000, 83168613000, 77406400000, 885068000, 65494232000, 888009000,
  1197104000, 59639580000, 1119814000, 21175766000, 76823850000, 71436073000, 11896375000, 69736353000, 104333010400, 108506517400, 109078123100, 1359840000,
  6225312000, 57821685000, 20122593000, 45297709000, 82171442000, 23313603000, 94427541800, 23032279000, 23242575000, 84552596000, 9183127000, 2060278000,
  3795989000, 264225000, 5959992000, 10162508000, 2902571000, 13371987000, 91423451500, 42262521000, 8449692000, 36519746000, 675661000, 47923932000,
  40383956000, 49043977000, 29043668000, 87476939000, 1271612000, 4335975000, 8601318000, 26471812000, 7846700000, 22110635000, 3403190000, 30244206000,
  29061859000, 5723820000, 21281375000, 46584728000, 8520475000, 4642086000, 5525778000, 52722865000, 0, 13285392000, 9245924000, 19820982000,
  23729476000, 19009802000, 5442011000, 773344000, 22331473000, 21440949000, 17983118000, 14163891000, 28471543000, 13790281000, 26273838000, 2744782000,
  34270411000, 16467012000, 14068078000, 15630197000, 53550774000, 9093454000, 10454817000, 210702000, 12580377000, 4013521000, 8135909000, 23154874000,
  15970770000, 23022609000, 14997792000, 15899579000, 93639708700]

def col30 : List Nat := [
  0, 48285424000, 10549989000, 84413118000, 3428805000, 23722430000, 2239844000, 60868876000, 88496486000, 88757582000, 0, 49803600000,
  20715714000, 74394557000, 38703118000, 25735733000, 76962815000, 77673088000, 0, 17640611000, 853698000, 4059557000, 4090215000, 21937510000,
  29689080000, 14661011000, 2375049000, 22981620000, 26562471000, 29784023000, 23308399000, 46282189000, 45789020000, 0, 27821555000, 12042218000,
  65173992000, 15829569000, 4456267000, 38065155000, 66429390000, 4096476000, 20545468000, 759171000, 6273853000, 5788040000, 1149325000, 1065088000,
  51509983000, 5199831000, 55664038000, 5313710000, 49846597000, 12515601000, 53090845000, 5643423000, 12572213000, 7606635000, 5051853000, 10520964000,
  11139757000, 10838326000, 58913933000, 18392775000, 46275485000, 65497651000, 72721956000, 41097762000, 5172017000, 25597477000, 2277377000, 49878859000,
  79974134000, 59060624000, 4272802000, 83107070000, 1363510000, 40259877000, 5618205000, 67448098000, 95992320700, 95359789700, 44136813000, 65153814000,
  36344001000, 45944065000, 61460942000, 24252695000, 33667435000, 61176241000, 16409895000, 57334426000, 85656279000, 15472286000, 42168589000, 81720051000,
  71805674000, 69753191000, 9671196000, 94078146700, 60609529000, 92409097900, 12657755000, 910703000, 13807615000, 2249397000, 3958645000, 53292017000,
  46796832000, 11964352000, 36841584000, 81753025000, 19307340000, 43267033000, 79466259000, 2763716000, 18279965000, 70846170000, 11787146000, 28551463000,
  65545790000, 23840443000, 37726462000, 72459497000, 26322582000, 48246392000, 71343822000, 98070237600, 62360252000, 23622297000, 19649097000, 36923754000,
  18107505000, 30461295000, 19520931000, 30578151000, 23792532000, 11701317000, 37431754000, 15530845000, 23539815000, 8954423000, 21552223000, 59870436000,
  53291942000, 57383728000, 13973383000, 52695568000, 5387772000, 14853562000, 92108757300, 5700691000, 20734812000, 13699604000, 34578627000, 60044904000,
  29272095000, 47465593000, 29065600000, 87557645000, 13151943000, 14541345000, 62488237000, 25767613000, 58422789000, 97434058300, 21784033000, 24886915000,
  72688309000, 14182863000, 67873338000, 72113106000, 66818139000, 8839801000, 103763390800, 11747739000, 37382902000, 98939655000, 9595094000, 52662449000,
  4566442000, 49672046000, 91633531700, 48389986000, 79706122000, 3060212000, 59355291000, 8993895000, 20607876000, 53233727000, 3616588000, 9508292000,
  30807351000, 6815826000, 10496923000, 20306387000, 5893697000, 25602983000, 5113038000, 14313116000, 91860812600, 29851628000, 88294321000, 5767133000,
  25484907000, 91054378800, 7836195000, 87927653000, 7011246000, 38934577000, 72700544000, 34800399000, 43384611000, 3961089000, 95505592200, 14399080000,
  91990279900, 11086255000, 66104028000, 15150674000, 59779723000, 7031563000, 21928992000, 94219976200, 92225263200, 5030295000, 48149111000, 3126981000,
  6062486000, 40340782000, 3013768000, 40806111000, 83900951000, 82354784000, 2820460000, 42279316000, 106478821400, 75283557000, 106294050800, 2060929000,
  13547018000, 51902163000, 16423897000, 41137326000, 50284077000, 35573110000, 108164611900, 18728735000, 46538999000, 106241934300, 48285483000, 6647254000,
  17486529000, 2355530000, 23722477000, 9917941000, 2239856000, 10479351000, 88496485000, 49803692000, 13808033000, 31176446000, 673774000, 38703167000,
  20090987000, 25736012000, 19971838000, 76993982000, 2195860000, 5702939000, 4041938000, 21937510000, 6881074000, 11200667000, 3162807000, 14660995000,
  10043004000, 2375891000, 6336948000, 46088617000, 29844387000, 15805452000, 5429161000, 46202237000, 0, 27814490000, 11705210000, 15808732000,
  14877048000, 45358988000, 4365619000, 799969000, 36595876000, 12911588000, 12323101000, 9412868000, 36548108000, 12615109000, 24397846000, 4332491000,
  36978179000, 15732643000, 10830900000, 15317562000, 60664729000, 41324308000, 27179606000, 444185000, 25759007000, 2251151000, 5913537000, 59060683000,
  29787085000, 40259704000, 9882665000, 5618221000, 96004917400]

def col31 : List Nat := [
  0, 62786177000, 15155838000, 79855466000, 18463277000, 50376216000, 2606681000, 69432677000, 79893110000, 79738266000, 0, 55504687000,
  21294645000, 70580568000, 48618760000, 9767083000, 73455710000, 74093877000, 0, 12145140000, 215446000, 543060000, 543716000, 11380664000,
  24468989000, 6518636000, 523890000, 13074796000, 26914989000, 25058367000, 20809526000, 32990191000, 32142439000, 0, 26533154000, 13782542000,
  57870938000, 18244834000, 4160054000, 37942046000, 55924996000, 3400020000, 19625071000, 761228000, 5493848000, 4502286000, 1531290000, 1206642000,
  40645704000, 2785180000, 45784870000, 13229472000, 38210132000, 16290965000, 43200026000, 3090353000, 5384243000, 3069064000, 1457182000, 4412879000,
  3642829000, 3436383000, 50470955000, 15074446000, 42630016000, 57397578000, 58489087000, 44511351000, 2647120000, 26419647000, 3425136000, 56727760000,
  67667178000, 65497298000, 3899722000, 81509156000, 6900803000, 49337972000, 4330999000, 73308785000, 87015931000, 85782811000, 41340513000, 56203258000,
  31916851000, 44485269000, 51561252000, 19708030000, 31340116000, 44986906000, 24036716000, 38449302000, 76989849000, 17403135000, 46962227000, 72319257000,
  60903032000, 56990207000, 6845268000, 87326403000, 61417160000, 83927624000, 4254427000, 291670000, 10259834000, 1583685000, 2191679000, 43363689000,
  34325729000, 8965350000, 42859583000, 66094316000, 30374227000, 49097409000, 62738004000, 2931287000, 25719692000, 58680732000, 16721534000, 38059709000,
  51497986000, 11169004000, 40411840000, 66709085000, 31099180000, 51774182000, 65415946000, 99818261690, 61809101000, 22837110000, 16563087000, 27250049000,
  14902763000, 20433266000, 25317951000, 24916100000, 17831398000, 9655706000, 29565668000, 13315866000, 15408153000, 9235585000, 21977247000, 44573578000,
  35944285000, 46753661000, 21241512000, 40220140000, 7925041000, 19863506000, 80923863000, 8244859000, 27301418000, 11151979000, 30277111000, 54331071000,
  17639218000, 39767884000, 17645744000, 82513721000, 29067319000, 11898730000, 55517548000, 23484615000, 49332485000, 93595408700, 26527290000, 25281986000,
  65345380000, 15594496000, 58795809000, 63269597000, 53941374000, 8631440000, 102777813700, 16786911000, 49432192000, 98064824400, 11530533000, 25799228000,
  3786281000, 21054271000, 86795550000, 42466369000, 73692507000, 2468846000, 47075545000, 9132782000, 21847804000, 40036648000, 4394170000, 6193529000,
  21199106000, 5415629000, 7654399000, 9704829000, 5485296000, 21116091000, 5444568000, 10191842000, 88611534000, 40086969000, 86325138000, 4654281000,
  34827887000, 81535384000, 15868180000, 75805153000, 10744031000, 44881090000, 68549832000, 39919596000, 50878992000, 4325550000, 92964310200, 27998237000,
  89189011000, 8088822000, 60713144000, 17640968000, 53310376000, 5413546000, 31957845000, 92505538800, 89760140000, 7615535000, 31374097000, 4880401000,
  9024253000, 20608430000, 5172776000, 43150167000, 81339975000, 80185566000, 7336551000, 29511640000, 110631101000, 51440626000, 109237455500, 3081754000,
  14686702000, 42028874000, 8568606000, 30363807000, 24381676000, 46219387000, 109242136800, 31108693000, 56469859000, 107108803200, 62786218000, 11775078000,
  46874234000, 10115780000, 50376119000, 6510147000, 2606781000, 6420804000, 79889490000, 55504660000, 15497070000, 43377299000, 1693536000, 48618908000,
  11287798000, 9767646000, 15683488000, 73462584000, 1144302000, 4144958000, 534492000, 11380667000, 4914395000, 5571528000, 4052592000, 6518406000,
  7183422000, 524055000, 5681307000, 47028593000, 25056410000, 15826717000, 6101818000, 32784277000, 0, 26419631000, 13594395000, 18106408000,
  17336557000, 40511502000, 5791378000, 2469470000, 33391387000, 16614325000, 7996137000, 12500541000, 39759558000, 8778158000, 24305286000, 5964007000,
  39864296000, 14340403000, 15290085000, 13537069000, 57596375000, 44444073000, 26407646000, 1192765000, 26308449000, 3333248000, 4488264000, 65497353000,
  41596288000, 49337943000, 9978778000, 4331126000, 87012324000]

/-- Entry `j`: one minus feature `j` of every support vector, in units of `10^-11`. -/
def cols : List (List Nat) := [col0, col1, col2, col3, col4, col5, col6, col7, col8, col9, col10, col11, col12, col13, col14, col15, col16, col17, col18, col19, col20, col21, col22, col23, col24, col25, col26, col27, col28, col29, col30, col31]

/-- Positive and negative parts of the coefficients, in units of `10^-18`. -/
def pos : List Nat := [
  1000000000000000000, 1000000000000000000, 1000000000000000000, 1000000000000000000, 1000000000000000000, 1000000000000000000, 1000000000000000000, 1000000000000000000, 1000000000000000000, 1000000000000000000, 1000000000000000000, 1000000000000000000,
  0, 0, 0, 0, 253488799749289010, 1000000000000000000, 1000000000000000000, 0, 1000000000000000000, 0, 0, 1000000000000000000,
  1000000000000000000, 1000000000000000000, 1000000000000000000, 0, 0, 1000000000000000000, 1000000000000000000, 0, 387919374384747550, 1000000000000000000, 1000000000000000000, 0,
  1000000000000000000, 1000000000000000000, 1000000000000000000, 0, 1000000000000000000, 1000000000000000000, 0, 1000000000000000000, 1000000000000000000, 1000000000000000000, 0, 0,
  1000000000000000000, 1000000000000000000, 637016913671274890, 1000000000000000000, 1000000000000000000, 1000000000000000000, 0, 1000000000000000000, 0, 1000000000000000000, 1000000000000000000, 0,
  0, 0, 1000000000000000000, 1000000000000000000, 1000000000000000000, 1000000000000000000, 1000000000000000000, 1000000000000000000, 1000000000000000000, 1000000000000000000, 1000000000000000000, 1000000000000000000,
  1000000000000000000, 1000000000000000000, 1000000000000000000, 1000000000000000000, 1000000000000000000, 1000000000000000000, 1000000000000000000, 1000000000000000000, 1000000000000000000, 1000000000000000000, 1000000000000000000, 0,
  1000000000000000000, 1000000000000000000, 0, 1000000000000000000, 0, 0, 0, 0, 0, 0, 0, 0,
  0, 0, 0, 0, 1000000000000000000, 0, 0, 0, 0, 0, 0, 0,
  0, 1000000000000000000, 0, 0, 0, 1000000000000000000, 0, 1000000000000000000, 0, 0, 0, 1000000000000000000,
  0, 0, 0, 0, 0, 1000000000000000000, 0, 0, 0, 1000000000000000000, 0, 0,
  0, 0, 0, 0, 0, 0, 0, 0, 0, 0, 0, 0,
  0, 0, 0, 0, 1000000000000000000, 0, 0, 0, 0, 1000000000000000000, 0, 0,
  0, 0, 1000000000000000000, 0, 0, 1000000000000000000, 0, 0, 0, 0, 1000000000000000000, 0,
  0, 0, 0, 0, 0, 0, 0, 0, 0, 0, 0, 0,
  0, 0, 0, 1000000000000000000, 1000000000000000000, 1000000000000000000, 0, 0, 0, 0, 1000000000000000000, 0,
  0, 0, 0, 0, 0, 0, 0, 0, 0, 1000000000000000000, 0, 1000000000000000000,
  1000000000000000000, 0, 1000000000000000000, 0, 1000000000000000000, 1000000000000000000, 0, 0, 1000000000000000000, 1000000000000000000, 0, 1000000000000000000,
  1000000000000000000, 1000000000000000000, 0, 0, 0, 1000000000000000000, 0, 0, 0, 0, 0, 0,
  0, 0, 0, 0, 0, 0, 1000000000000000000, 1000000000000000000, 0, 1000000000000000000, 1000000000000000000, 0,
  0, 0, 0, 0, 1000000000000000000, 0, 0, 0, 1000000000000000000, 0, 1000000000000000000, 1000000000000000000,
  1000000000000000000, 1000000000000000000, 1000000000000000000, 1000000000000000000, 1000000000000000000, 1000000000000000000, 1000000000000000000, 1000000000000000000, 1000000000000000000, 1000000000000000000, 1000000000000000000, 1000000000000000000,
  1000000000000000000, 0, 1000000000000000000, 1000000000000000000, 42982076319407980, 1000000000000000000, 0, 1000000000000000000, 1000000000000000000, 1000000000000000000, 1000000000000000000, 1000000000000000000,
  387371883912798420, 1000000000000000000, 1000000000000000000, 0, 1000000000000000000, 1000000000000000000, 1000000000000000000, 0, 0, 1000000000000000000, 1000000000000000000, 1000000000000000000,
  0, 1000000000000000000, 1000000000000000000, 351220951962484600, 1000000000000000000, 1000000000000000000, 1000000000000000000, 1000000000000000000, 1000000000000000000, 1000000000000000000, 1000000000000000000, 1000000000000000000,
  1000000000000000000, 1000000000000000000, 1000000000000000000, 1000000000000000000, 0, 1000000000000000000, 1000000000000000000, 1000000000000000000, 1000000000000000000, 1000000000000000000, 1000000000000000000, 1000000000000000000,
  1000000000000000000, 1000000000000000000, 1000000000000000000, 1000000000000000000, 1000000000000000000]

def neg : List Nat := [
  0, 0, 0, 0, 0, 0, 0, 0, 0, 0, 0, 0,
  1000000000000000000, 1000000000000000000, 1000000000000000000, 1000000000000000000, 0, 0, 0, 1000000000000000000, 0, 1000000000000000000, 1000000000000000000, 0,
  0, 0, 0, 1000000000000000000, 1000000000000000000, 0, 0, 1000000000000000000, 0, 0, 0, 1000000000000000000,
  0, 0, 0, 1000000000000000000, 0, 0, 1000000000000000000, 0, 0, 0, 1000000000000000000, 1000000000000000000,
  0, 0, 0, 0, 0, 0, 1000000000000000000, 0, 1000000000000000000, 0, 0, 1000000000000000000,
  1000000000000000000, 1000000000000000000, 0, 0, 0, 0, 0, 0, 0, 0, 0, 0,
  0, 0, 0, 0, 0, 0, 0, 0, 0, 0, 0, 1000000000000000000,
  0, 0, 1000000000000000000, 0, 1000000000000000000, 1000000000000000000, 1000000000000000000, 1000000000000000000, 1000000000000000000, 1000000000000000000, 1000000000000000000, 1000000000000000000,
  1000000000000000000, 1000000000000000000, 1000000000000000000, 1000000000000000000, 0, 1000000000000000000, 1000000000000000000, 1000000000000000000, 1000000000000000000, 1000000000000000000, 1000000000000000000, 1000000000000000000,
  1000000000000000000, 0, 1000000000000000000, 1000000000000000000, 1000000000000000000, 0, 60000000000002274, 0, 1000000000000000000, 1000000000000000000, 1000000000000000000, 0,
  1000000000000000000, 1000000000000000000, 1000000000000000000, 1000000000000000000, 1000000000000000000, 0, 1000000000000000000, 1000000000000000000, 1000000000000000000, 0, 1000000000000000000, 1000000000000000000,
  1000000000000000000, 1000000000000000000, 1000000000000000000, 1000000000000000000, 1000000000000000000, 1000000000000000000, 1000000000000000000, 1000000000000000000, 1000000000000000000, 1000000000000000000, 1000000000000000000, 1000000000000000000,
  1000000000000000000, 1000000000000000000, 1000000000000000000, 1000000000000000000, 0, 1000000000000000000, 1000000000000000000, 1000000000000000000, 1000000000000000000, 0, 1000000000000000000, 1000000000000000000,
  1000000000000000000, 1000000000000000000, 0, 1000000000000000000, 1000000000000000000, 0, 1000000000000000000, 1000000000000000000, 1000000000000000000, 1000000000000000000, 0, 1000000000000000000,
  1000000000000000000, 1000000000000000000, 1000000000000000000, 1000000000000000000, 1000000000000000000, 1000000000000000000, 1000000000000000000, 1000000000000000000, 1000000000000000000, 1000000000000000000, 1000000000000000000, 1000000000000000000,
  1000000000000000000, 1000000000000000000, 1000000000000000000, 0, 0, 0, 1000000000000000000, 1000000000000000000, 1000000000000000000, 1000000000000000000, 0, 1000000000000000000,
  1000000000000000000, 1000000000000000000, 1000000000000000000, 1000000000000000000, 1000000000000000000, 1000000000000000000, 1000000000000000000, 1000000000000000000, 1000000000000000000, 0, 1000000000000000000, 0,
  0, 1000000000000000000, 0, 1000000000000000000, 0, 0, 1000000000000000000, 1000000000000000000, 0, 0, 1000000000000000000, 0,
  0, 0, 1000000000000000000, 1000000000000000000, 1000000000000000000, 0, 1000000000000000000, 1000000000000000000, 1000000000000000000, 1000000000000000000, 1000000000000000000, 1000000000000000000,
  1000000000000000000, 1000000000000000000, 1000000000000000000, 1000000000000000000, 1000000000000000000, 1000000000000000000, 0, 0, 1000000000000000000, 0, 0, 1000000000000000000,
  1000000000000000000, 1000000000000000000, 1000000000000000000, 1000000000000000000, 0, 1000000000000000000, 1000000000000000000, 1000000000000000000, 0, 1000000000000000000, 0, 0,
  0, 0, 0, 0, 0, 0, 0, 0, 0, 0, 0, 0,
  0, 1000000000000000000, 0, 0, 0, 0, 1000000000000000000, 0, 0, 0, 0, 0,
  0, 0, 0, 1000000000000000000, 0, 0, 0, 1000000000000000000, 1000000000000000000, 0, 0, 0,
  1000000000000000000, 0, 0, 0, 0, 0, 0, 0, 0, 0, 0, 0,
  0, 0, 0, 0, 1000000000000000000, 0, 0, 0, 0, 0, 0, 0,
  0, 0, 0, 0, 0]

/-- Squared distances from perfect similarity, in units of `10^-22`, and sums of the distances, in units of `10^-11`. -/
def sq : List Nat := [
  0, 6394848080411058000000, 437116472423469000000, 28841589245316223000000, 353186607326637000000, 4422475515415908000000, 529574733557238000000, 9417773366348618000000, 107930784303504717430000, 58645411358369315170000, 0, 7625911855928923000000,
  1835697324180649000000, 31438753428858644000000, 10923647828911041000000, 5774679054320643000000, 130974306030861268460000, 93409323325281866880000, 0, 4528108028082957000000, 890193192053000000, 1568449577654296000000, 760377341114203000000, 1337227160981478000000,
  17592372926824177000000, 1692997994007289000000, 287006723090815000000, 2309363251058423000000, 14450165393234540000000, 1600388095014823000000, 1680296659161426000000, 60346239769128263000000, 24983371930848713000000, 0, 1675042197907942000000, 488436066290986000000,
  25074151337916132000000, 2263299668014519000000, 1194765645214722000000, 3618638355750798000000, 45399043960667012000000, 100781251425169000000, 5900974308069143000000, 2456661747187000000, 405114702821143000000, 223743145591236000000, 8593106484568519000000, 209913601796110000000,
  4928858093297552000000, 163428103101981000000, 10270674308418027000000, 214125021810386000000, 6750780811145929000000, 869368949426010000000, 47282018440935852000000, 67392272966488000000, 2308776837030329000000, 1556130203852669000000, 366227316087541000000, 462849356772206000000,
  7008884149316555000000, 2731896950121973000000, 6833219576006198000000, 873863990614832000000, 5722652034584132000000, 9210305790403394000000, 39162454378466737000000, 3769580225308090000000, 55800297649821000000, 2711658642347987000000, 275040928675722000000, 6054160529316599000000,
  43844874321965070000000, 8335958031625987000000, 1281696073393469000000, 23370089711549520000000, 49586137248838000000, 6290411685637956000000, 533322318200448000000, 10964783680800548000000, 120954284402972806208500, 70921769868836241818164, 4081864426363859000000, 31430767426778315000000,
  3039571057942363000000, 4455502395076915000000, 15680161179855273000000, 1058801967046879000000, 2547833538215045000000, 39522189998862750000000, 1063489114887099000000, 18414622202708869000000, 63257285554114539120000, 898260880745354000000, 4553987408434503000000, 25351005745155470000000,
  38523665552487540000000, 18695572058385904000000, 276469961660046000000, 50516418030793600450000, 12378360318798562000000, 33218672474927460410000, 1028899299731960000000, 12359346979470000000, 1892236633724794000000, 34287440924635000000, 223810216213010000000, 23451466851886725000000,
  10457341156327432000000, 481772980199075000000, 3925070445701463000000, 54498094684874333000000, 1653132877551916000000, 6222453094622103000000, 39386847736554014010000, 146383480131004000000, 1047589019750343000000, 38364172914584944000000, 492794273786910000000, 2375097833338108000000,
  15328090183979003000000, 1508326550420007000000, 3499633891848771000000, 35666300375073014000000, 2079671892641176000000, 5542666141368534000000, 21126823273453199000000, 50776217157180857416100, 11562500081119986000000, 2202220067388729000000, 738971648063453000000, 19244711144805446000000,
  619827145787782000000, 9149461477334099000000, 1040373034745978000000, 7538262973444168000000, 2677906292802523000000, 302793207834692000000, 16804060129024747000000, 702411760426896000000, 2789806648892707000000, 253897942509821000000, 1170495102623304000000, 30495960155567718000000,
  13108081898383090000000, 43525911544232395040000, 733130550243073000000, 11873656726630590000000, 108609282011658000000, 642164098632404000000, 67957547607485502460000, 158346176977476000000, 1229144944407829000000, 1155777317500887000000, 2506476307569708000000, 28006350991474645000000,
  2675062663472739000000, 8509173676693090000000, 4875344497913198000000, 54125905099138886000000, 1225100516534020000000, 480181345055907000000, 31201543428884710000000, 1956707441501856000000, 12827119298405970000000, 65270176376038857910000, 1699106371976557000000, 1378627192530197000000,
  44839916375298642000000, 617193254317317000000, 22193597312835067000000, 32373806705942224000000, 16459012096925542000000, 293121614798906000000, 71081592464932899580000, 755862781817335000000, 4149553946877633000000, 32949819358756066360000, 246920144233463000000, 82527231589256131290000,
  119036446084591000000, 8825335655634073000000, 49427933787862535890000, 13086797863886722960000, 25460356226070481840000, 429056529323034000000, 25157652171091154000000, 261507885321035000000, 980831018075722000000, 12634386395843012000000, 65785728656706000000, 176193379290503000000,
  37230368087286971850000, 106548493280504000000, 224025964809292000000, 4182471998936000000000, 132220265368274000000, 6674204350667735000000, 137217222545609000000, 1217839607119110000000, 58828084997700542760000, 2648207815989371000000, 27633385869435899000000, 118782127670803000000,
  2287726984055584000000, 43234704991515932440000, 868260608815661000000, 24726887900821888000000, 383584343542302000000, 4607656727876162000000, 38471202383711854000000, 3897111427944836000000, 5995368184131701000000, 85446801735283000000, 58867154285682927650000, 1272751640893636000000,
  42209442188746655010000, 497428585961301000000, 30535154061084233000000, 721936146421066000000, 14184301089246082000000, 153235706161368000000, 1694720575092726000000, 46963194041836073880000, 37074252629344278240000, 101349091522383000000, 31072320309986654000000, 40863252000904000000,
  125403310595195000000, 11739012982498533000000, 38395584546617000000, 4669426001831269000000, 50018312016278746000000, 29900559178146066000000, 247255481019339000000, 7584138842592386000000, 86196378916321837100000, 23449239158338564760000, 71210686356622900500000, 143257953577932000000,
  489471722036801000000, 38390557334682642000000, 983255609305289000000, 7401554043636740000000, 11240894718141752000000, 4106763939222777000000, 63583576275121778340000, 1958284908646795000000, 6006934925327894000000, 37731089849925671730000, 6394858802219849000000, 195673069351609000000,
  2527497483816091000000, 110380065852829000000, 4422475574020174000000, 1099937287327820000000, 529576812464488000000, 770658413181450000000, 107539175073275427300000, 7625916720992250000000, 831326603687586000000, 4363265061342925000000, 325222268986923000000, 10923729297325208000000,
  6782125730005861000000, 5774642269369757000000, 4392437841913420000000, 131385393444918372260000, 14589690856425000000, 851508712225531000000, 1550669027559998000000, 1337225946366656000000, 9885773847133406000000, 660706104207428000000, 9722487581478595000000, 1692886744591858000000,
  14462709394752794000000, 286989058283173000000, 12557571284344114000000, 68446995240726496960000, 1603652060533347000000, 524201495651839000000, 397893240033529000000, 59724581117771946000000, 0, 1667741014777606000000, 409356227889148000000, 2256867068244659000000,
  10055142652212489000000, 4164442695711418000000, 89274422840667000000, 8382395800155000000, 3433975119296301000000, 1287493837713394000000, 842956403818304000000, 573045736077674000000, 3982015837977688000000, 505112948780271000000, 1889187766407230000000, 78462096549289000000,
  6993490728715741000000, 1759738512495114000000, 1376326172830017000000, 1134588773579932000000, 48546368494535967000000, 3781594470208206000000, 1547008393504322000000, 3186556808387000000, 2718521614278308000000, 275793108911952000000, 196664018892211000000, 8335975786534780000000,
  2872929418206305000000, 6290390478573546000000, 1694960503017161000000, 533326325576768000000, 120883906070517685610500]

def tot : List Nat := [
  0, 142385832000, 62104825000, 638407455000, 24927891000, 207316082000, 89909226000, 249858454000, 1221246540500, 693697392100, 0, 190503191000,
  132416529000, 778950138000, 377526815000, 248926721000, 1423770439400, 974006770400, 0, 295736723000, 2302781000, 137473456000, 79598849000, 76822444000,
  490692407000, 123751013000, 59321291000, 153480203000, 443303942000, 76480855000, 130133504000, 896610027000, 450279627000, 0, 79835784000, 79510458000,
  599322134000, 151888225000, 95092062000, 166182628000, 662284958000, 35776369000, 357410147000, 5016491000, 85412995000, 61202118000, 243204287000, 35839140000,
  126762368000, 40214733000, 350394279000, 22950634000, 227206835000, 84784418000, 773978082000, 19240030000, 172308023000, 112488301000, 54202497000, 59079766000,
  290103659000, 150623267000, 157871890000, 74022022000, 233038466000, 230523104000, 568685781000, 105828740000, 21470803000, 164145073000, 58327624000, 185823709000,
  615378918000, 156169649000, 68710869000, 487257976000, 9301852000, 215833428000, 68994204000, 210722938000, 1278213369490, 792919567542, 120939257000, 578460943000,
  119385797000, 130396467000, 312174911000, 69327327000, 112324387000, 642550624000, 87673801000, 346107315000, 806705626000, 84485108000, 149337995000, 418109962000,
  691545426000, 348903876000, 47447850000, 726204648100, 251270352000, 471448211900, 72829260000, 11632994000, 165272134000, 24734077000, 45736322000, 524039665000,
  277410592000, 61150233000, 140243379000, 771071661000, 88286026000, 163127323000, 514891240900, 29729412000, 67735283000, 609264404000, 58168730000, 96120546000,
  317822917000, 85414239000, 112032019000, 617368994000, 96116196000, 136643644000, 376605167000, 712920201290, 265878370000, 153546271000, 57345621000, 420607040000,
  51448984000, 244858175000, 57505160000, 351665160000, 155685581000, 43094222000, 450800761000, 87495248000, 149091305000, 47097557000, 81832562000, 560810488000,
  291233118000, 671436425200, 63682787000, 273596008000, 27530818000, 50059216000, 838831918600, 40519726000, 79148053000, 89096721000, 107169202000, 553099583000,
  125035183000, 252572466000, 143346400000, 758912860000, 92688608000, 61066435000, 591409210000, 135516520000, 304104872000, 896713300500, 107709725000, 78953519000,
  728313328000, 74015513000, 396935531000, 632692382000, 349767008000, 63464706000, 885740242200, 98464807000, 147872381000, 473827137400, 38411141000, 821495961300,
  42625047000, 214539477000, 819407648700, 244856955600, 359554950800, 75926464000, 556472198000, 60158163000, 82774008000, 311662558000, 35623228000, 31431071000,
  571842231300, 32768638000, 37491832000, 159371882000, 33017564000, 327683749000, 43286575000, 105079544000, 783214682600, 99630945000, 439240805000, 35227725000,
  132798348000, 711581131800, 114379763000, 435938780000, 81237240000, 151260768000, 663253280000, 129880262000, 156781465000, 35633333000, 794070522100, 103629530000,
  545176688900, 75157557000, 602782491000, 77860820000, 311226664000, 40431516000, 100488212000, 669718797000, 518681581200, 28687655000, 546798970000, 19930552000,
  25283073000, 266282941000, 15025189000, 165645845000, 741688194000, 496832990000, 47239223000, 168383588000, 1048262935200, 354827619400, 753480713400, 59607838000,
  62961177000, 661896218000, 106891355000, 245397282000, 223683832000, 152916667000, 804473066000, 116494309000, 165972894000, 503596300500, 142385903000, 32515559000,
  80518235000, 19969863000, 207315908000, 134824720000, 89909538000, 102775394000, 1217875439400, 190503736000, 74375758000, 140368463000, 36222397000, 377528800000,
  309871795000, 248926109000, 232105348000, 1424220723600, 16072997000, 114678573000, 136340150000, 76822274000, 281145966000, 51254884000, 270603805000, 123749194000,
  479792586000, 59325057000, 409433734000, 1170691193600, 76599507000, 42408751000, 69681679000, 890532866000, 0, 79525418000, 40422356000, 151654639000,
  408386295000, 124037990000, 24556443000, 9003715000, 172196149000, 112490382000, 93378574000, 72877844000, 142570158000, 62149569000, 89334460000, 29007009000,
  294931739000, 162476334000, 135339291000, 127636680000, 784328655000, 105952398000, 69099686000, 7836451000, 164241232000, 58266856000, 59205203000, 156169790000,
  89864037000, 215833028000, 127660711000, 68994448000, 1276318259390]

/-- The kernel at perfect similarity, rounded down to units of `10^-15`. -/
def kern : List Nat := [
  1000000000000000, 993625555444925, 999562979049063, 971570359470843, 999646875755721, 995587289229341, 999470565466392, 990626434971024, 897689728499947, 943041101541561, 1000000000000000, 992403091637032,
  998165986537641, 969050305644738, 989135798558004, 994241962356425, 877240313887029, 910820603865434, 1000000000000000, 995482128396699, 999999109807204, 998432779796563, 999239911672478, 998663666528858,
  982561469394252, 998308434318681, 999713034459398, 997693301276738, 985653737174872, 998400891843122, 998321114248911, 941438513693350, 975326129683827, 1000000000000000, 998326359902306, 999511683199185,
  975237594174738, 997739259663470, 998805947803095, 996387901025760, 955616072916085, 999899223826834, 994116402244491, 999997543341270, 999594967345060, 999776281883039, 991443708727143, 999790108428522,
  995083268795668, 999836585250542, 989781888959639, 999785897901315, 993271954520452, 999131008842271, 953818365287804, 999932609997841, 997693886338257, 998445079938958, 999633839736950, 999537257741467,
  993015620794997, 997271831284527, 993190073782471, 999126517717327, 994293691148259, 990831979157295, 961594481222971, 996237515723180, 999944201259157, 997292014583020, 999724996891613, 993964128972733,
  957102417119201, 991698689725602, 998719124948214, 976900875900353, 999950415092123, 993729331534596, 999466819872868, 989095110451171, 886074466090206, 931534763363913, 995926455058714, 969058044513396,
  996965043761291, 995554408630722, 984442132518143, 998941758365977, 997455409434884, 961248623648073, 998937076189245, 981753890998405, 938701928171641, 999102142434789, 995456366269421, 974967632720419,
  962208933264354, 981478106127093, 999723568252638, 950738319293186, 987697936449196, 967327008668643, 998971629835661, 999987640729396, 998109552517337, 999965713146882, 999776214827425, 976821381735227,
  989597146737470, 999518343053768, 996082622574793, 946960313113914, 998348232793954, 993796866274575, 961378730015685, 999853627233407, 998952959510065, 962362410744273, 999507327129368, 997627720479822,
  984788787060045, 998492810402367, 996506482689494, 964962247302194, 997922489126619, 994472666092378, 979094784689561, 950491350390953, 988504088731462, 997800203040158, 999261301324241, 980939286093664,
  999380364907375, 990892267482516, 998960167965649, 992490078471082, 997325676099769, 999697252629402, 983336340555498, 999297834872964, 997214081245344, 999746134286845, 998830189659573, 969964350564376,
  986977454858311, 957407745856403, 999267138124296, 988196556962897, 999891396615762, 999358042044604, 934300136011425, 999841666359116, 998771610144836, 998844890335858, 997496662281356, 972382191190629,
  997328512128346, 991526926873785, 995136520703926, 947312827477578, 998775649612744, 999519933923555, 969280201333415, 998045205662505, 987254797569787, 936814324083712, 998302336292059, 998622322677382,
  956150533625413, 999382997170261, 978050868701396, 968144615481052, 983675697368532, 999706921341144, 931385894956262, 999244422810494, 995859043556056, 967587112512578, 999753110338036, 920786363039361,
  999880970638472, 991213493308910, 951773746393699, 986998461944065, 974861025369793, 999571035502266, 975156164422855, 999738526304885, 999019649839441, 987445092389940, 999934216435176, 999823822141851,
  963454160689909, 999893457182808, 999775999127133, 995826262355767, 999867788475345, 993348018683347, 999862792191306, 998782901658590, 942868848525025, 997355295593061, 972744923472275, 999881224926646,
  997714887868917, 957686589864248, 999132116220356, 975576317343357, 999616489215526, 995402942237338, 962259415118225, 996110472455850, 994022568172777, 999914556848738, 942832012030045, 998728057963964,
  958668973816355, 999502695111126, 969926334618267, 999278324386778, 985915822157656, 999846776033829, 998306714652936, 954122514337460, 963604582518693, 999898656044123, 969405462837284, 999959137582890,
  999874604552071, 988329620405144, 999961605152554, 995341458819216, 951212005731494, 970542040248201, 999752775084097, 992444548170491, 917414052751606, 976823557796340, 931265666486965, 999856752307352,
  999510648049704, 962337019705107, 999017227628096, 992625770002465, 988822048073698, 995901657283867, 938395688407001, 998043631280226, 994011070637482, 962971858983904, 993625544791462, 999804346073374,
  997475693948603, 999889626025802, 995587289170995, 998900667421955, 999470563388585, 999229638467743, 898041340926352, 992403086808928, 999169018852537, 995646240150044, 999674830610042, 989135717974682,
  993240820979574, 994241998929567, 995617194804423, 876879765548406, 999985410415572, 999148853718439, 998450532638447, 998663667741850, 990162929791963, 999339512114008, 990324622999939, 998308545379917,
  985641373210443, 999713052119137, 987520946008125, 933842956912858, 998397633102355, 999475935873948, 999602185908983, 942023949041728, 1000000000000000, 998333648892492, 999590727546939, 997745677741444,
  989995241280713, 995844216571260, 999910729562002, 999991617639332, 996571914230041, 998713334626891, 999157398784121, 999427118423271, 996025901874117, 999495014599288, 998112595625570, 999921540981520,
  993030906819763, 998241808919496, 998624620529663, 998866054628907, 952613167043311, 996225546753586, 998454187607159, 999996813448268, 997285170219404, 999724244918511, 999803355318208, 991698672118082,
  997131193494290, 993729352608678, 998306475131307, 999466815867628, 886136828728024]

/-- Coefficients times kernels. -/
def wpos : List Nat := [
  1000000000000000000000000000000000, 993625555444925000000000000000000, 999562979049063000000000000000000, 971570359470843000000000000000000, 999646875755721000000000000000000, 995587289229341000000000000000000,
  999470565466392000000000000000000, 990626434971024000000000000000000, 897689728499947000000000000000000, 943041101541561000000000000000000, 1000000000000000000000000000000000, 992403091637032000000000000000000,
  0, 0, 0, 0, 222370594258912529212672211251290, 910820603865434000000000000000000,
  1000000000000000000000000000000000, 0, 999999109807204000000000000000000, 0, 0, 998663666528858000000000000000000,
  982561469394252000000000000000000, 998308434318681000000000000000000, 999713034459398000000000000000000, 0, 0, 998400891843122000000000000000000,
  998321114248911000000000000000000, 0, 378347902048047326611132712873850, 1000000000000000000000000000000000, 998326359902306000000000000000000, 0,
  975237594174738000000000000000000, 997739259663470000000000000000000, 998805947803095000000000000000000, 0, 955616072916085000000000000000000, 999899223826834000000000000000000,
  0, 999997543341270000000000000000000, 999594967345060000000000000000000, 999776281883039000000000000000000, 0, 0,
  995083268795668000000000000000000, 999836585250542000000000000000000, 630507804112793746009780884164710, 999785897901315000000000000000000, 993271954520452000000000000000000, 999131008842271000000000000000000,
  0, 999932609997841000000000000000000, 0, 998445079938958000000000000000000, 999633839736950000000000000000000, 0,
  0, 0, 993190073782471000000000000000000, 999126517717327000000000000000000, 994293691148259000000000000000000, 990831979157295000000000000000000,
  961594481222971000000000000000000, 996237515723180000000000000000000, 999944201259157000000000000000000, 997292014583020000000000000000000, 999724996891613000000000000000000, 993964128972733000000000000000000,
  957102417119201000000000000000000, 991698689725602000000000000000000, 998719124948214000000000000000000, 976900875900353000000000000000000, 999950415092123000000000000000000, 993729331534596000000000000000000,
  999466819872868000000000000000000, 989095110451171000000000000000000, 886074466090206000000000000000000, 931534763363913000000000000000000, 995926455058714000000000000000000, 0,
  996965043761291000000000000000000, 995554408630722000000000000000000, 0, 998941758365977000000000000000000, 0, 0,
  0, 0, 0, 0, 0, 0,
  0, 0, 0, 0, 987697936449196000000000000000000, 0,
  0, 0, 0, 0, 0, 0,
  0, 999518343053768000000000000000000, 0, 0, 0, 993796866274575000000000000000000,
  0, 999853627233407000000000000000000, 0, 0, 0, 997627720479822000000000000000000,
  0, 0, 0, 0, 0, 994472666092378000000000000000000,
  0, 0, 0, 997800203040158000000000000000000, 0, 0,
  0, 0, 0, 0, 0, 0,
  0, 0, 0, 0, 0, 0,
  0, 0, 0, 0, 999891396615762000000000000000000, 0,
  0, 0, 0, 998844890335858000000000000000000, 0, 0,
  0, 0, 995136520703926000000000000000000, 0, 0, 999519933923555000000000000000000,
  0, 0, 0, 0, 998302336292059000000000000000000, 0,
  0, 0, 0, 0, 0, 0,
  0, 0, 0, 0, 0, 0,
  0, 0, 0, 986998461944065000000000000000000, 974861025369793000000000000000000, 999571035502266000000000000000000,
  0, 0, 0, 0, 999934216435176000000000000000000, 0,
  0, 0, 0, 0, 0, 0,
  0, 0, 0, 997355295593061000000000000000000, 0, 999881224926646000000000000000000,
  997714887868917000000000000000000, 0, 999132116220356000000000000000000, 0, 999616489215526000000000000000000, 995402942237338000000000000000000,
  0, 0, 994022568172777000000000000000000, 999914556848738000000000000000000, 0, 998728057963964000000000000000000,
  958668973816355000000000000000000, 999502695111126000000000000000000, 0, 0, 0, 999846776033829000000000000000000,
  0, 0, 0, 0, 0, 0,
  0, 0, 0, 0, 0, 0,
  999752775084097000000000000000000, 992444548170491000000000000000000, 0, 976823557796340000000000000000000, 931265666486965000000000000000000, 0,
  0, 0, 0, 0, 988822048073698000000000000000000, 0,
  0, 0, 994011070637482000000000000000000, 0, 993625544791462000000000000000000, 999804346073374000000000000000000,
  997475693948603000000000000000000, 999889626025802000000000000000000, 995587289170995000000000000000000, 998900667421955000000000000000000, 999470563388585000000000000000000, 999229638467743000000000000000000,
  898041340926352000000000000000000, 992403086808928000000000000000000, 999169018852537000000000000000000, 995646240150044000000000000000000, 999674830610042000000000000000000, 989135717974682000000000000000000,
  993240820979574000000000000000000, 0, 995617194804423000000000000000000, 876879765548406000000000000000000, 42981449228776627257780813064560, 999148853718439000000000000000000,
  0, 998663667741850000000000000000000, 990162929791963000000000000000000, 999339512114008000000000000000000, 990324622999939000000000000000000, 998308545379917000000000000000000,
  381809755602926948327291697900060, 999713052119137000000000000000000, 987520946008125000000000000000000, 0, 998397633102355000000000000000000, 999475935873948000000000000000000,
  999602185908983000000000000000000, 0, 0, 998333648892492000000000000000000, 999590727546939000000000000000000, 997745677741444000000000000000000,
  0, 995844216571260000000000000000000, 999910729562002000000000000000000, 351218007901791092151677404287200, 996571914230041000000000000000000, 998713334626891000000000000000000,
  999157398784121000000000000000000, 999427118423271000000000000000000, 996025901874117000000000000000000, 999495014599288000000000000000000, 998112595625570000000000000000000, 999921540981520000000000000000000,
  993030906819763000000000000000000, 998241808919496000000000000000000, 998624620529663000000000000000000, 998866054628907000000000000000000, 0, 996225546753586000000000000000000,
  998454187607159000000000000000000, 999996813448268000000000000000000, 997285170219404000000000000000000, 999724244918511000000000000000000, 999803355318208000000000000000000, 991698672118082000000000000000000,
  997131193494290000000000000000000, 993729352608678000000000000000000, 998306475131307000000000000000000, 999466815867628000000000000000000, 886136828728024000000000000000000]

def wneg : List Nat := [
  0, 0, 0, 0, 0, 0,
  0, 0, 0, 0, 0, 0,
  998165986537641000000000000000000, 969050305644738000000000000000000, 989135798558004000000000000000000, 994241962356425000000000000000000, 0, 0,
  0, 995482128396699000000000000000000, 0, 998432779796563000000000000000000, 999239911672478000000000000000000, 0,
  0, 0, 0, 997693301276738000000000000000000, 985653737174872000000000000000000, 0,
  0, 941438513693350000000000000000000, 0, 0, 0, 999511683199185000000000000000000,
  0, 0, 0, 996387901025760000000000000000000, 0, 0,
  994116402244491000000000000000000, 0, 0, 0, 991443708727143000000000000000000, 999790108428522000000000000000000,
  0, 0, 0, 0, 0, 0,
  953818365287804000000000000000000, 0, 997693886338257000000000000000000, 0, 0, 999537257741467000000000000000000,
  993015620794997000000000000000000, 997271831284527000000000000000000, 0, 0, 0, 0,
  0, 0, 0, 0, 0, 0,
  0, 0, 0, 0, 0, 0,
  0, 0, 0, 0, 0, 969058044513396000000000000000000,
  0, 0, 984442132518143000000000000000000, 0, 997455409434884000000000000000000, 961248623648073000000000000000000,
  998937076189245000000000000000000, 981753890998405000000000000000000, 938701928171641000000000000000000, 999102142434789000000000000000000, 995456366269421000000000000000000, 974967632720419000000000000000000,
  962208933264354000000000000000000, 981478106127093000000000000000000, 999723568252638000000000000000000, 950738319293186000000000000000000, 0, 967327008668643000000000000000000,
  998971629835661000000000000000000, 999987640729396000000000000000000, 998109552517337000000000000000000, 999965713146882000000000000000000, 999776214827425000000000000000000, 976821381735227000000000000000000,
  989597146737470000000000000000000, 0, 996082622574793000000000000000000, 946960313113914000000000000000000, 998348232793954000000000000000000, 0,
  57682723800943286175232055667690, 0, 998952959510065000000000000000000, 962362410744273000000000000000000, 999507327129368000000000000000000, 0,
  984788787060045000000000000000000, 998492810402367000000000000000000, 996506482689494000000000000000000, 964962247302194000000000000000000, 997922489126619000000000000000000, 0,
  979094784689561000000000000000000, 950491350390953000000000000000000, 988504088731462000000000000000000, 0, 999261301324241000000000000000000, 980939286093664000000000000000000,
  999380364907375000000000000000000, 990892267482516000000000000000000, 998960167965649000000000000000000, 992490078471082000000000000000000, 997325676099769000000000000000000, 999697252629402000000000000000000,
  983336340555498000000000000000000, 999297834872964000000000000000000, 997214081245344000000000000000000, 999746134286845000000000000000000, 998830189659573000000000000000000, 969964350564376000000000000000000,
  986977454858311000000000000000000, 957407745856403000000000000000000, 999267138124296000000000000000000, 988196556962897000000000000000000, 0, 999358042044604000000000000000000,
  934300136011425000000000000000000, 999841666359116000000000000000000, 998771610144836000000000000000000, 0, 997496662281356000000000000000000, 972382191190629000000000000000000,
  997328512128346000000000000000000, 991526926873785000000000000000000, 0, 947312827477578000000000000000000, 998775649612744000000000000000000, 0,
  969280201333415000000000000000000, 998045205662505000000000000000000, 987254797569787000000000000000000, 936814324083712000000000000000000, 0, 998622322677382000000000000000000,
  956150533625413000000000000000000, 999382997170261000000000000000000, 978050868701396000000000000000000, 968144615481052000000000000000000, 983675697368532000000000000000000, 999706921341144000000000000000000,
  931385894956262000000000000000000, 999244422810494000000000000000000, 995859043556056000000000000000000, 967587112512578000000000000000000, 999753110338036000000000000000000, 920786363039361000000000000000000,
  999880970638472000000000000000000, 991213493308910000000000000000000, 951773746393699000000000000000000, 0, 0, 0,
  975156164422855000000000000000000, 999738526304885000000000000000000, 999019649839441000000000000000000, 987445092389940000000000000000000, 0, 999823822141851000000000000000000,
  963454160689909000000000000000000, 999893457182808000000000000000000, 999775999127133000000000000000000, 995826262355767000000000000000000, 999867788475345000000000000000000, 993348018683347000000000000000000,
  999862792191306000000000000000000, 998782901658590000000000000000000, 942868848525025000000000000000000, 0, 972744923472275000000000000000000, 0,
  0, 957686589864248000000000000000000, 0, 975576317343357000000000000000000, 0, 0,
  962259415118225000000000000000000, 996110472455850000000000000000000, 0, 0, 942832012030045000000000000000000, 0,
  0, 0, 969926334618267000000000000000000, 999278324386778000000000000000000, 985915822157656000000000000000000, 0,
  998306714652936000000000000000000, 954122514337460000000000000000000, 963604582518693000000000000000000, 999898656044123000000000000000000, 969405462837284000000000000000000, 999959137582890000000000000000000,
  999874604552071000000000000000000, 988329620405144000000000000000000, 999961605152554000000000000000000, 995341458819216000000000000000000, 951212005731494000000000000000000, 970542040248201000000000000000000,
  0, 0, 917414052751606000000000000000000, 0, 0, 999856752307352000000000000000000,
  999510648049704000000000000000000, 962337019705107000000000000000000, 999017227628096000000000000000000, 992625770002465000000000000000000, 0, 995901657283867000000000000000000,
  938395688407001000000000000000000, 998043631280226000000000000000000, 0, 962971858983904000000000000000000, 0, 0,
  0, 0, 0, 0, 0, 0,
  0, 0, 0, 0, 0, 0,
  0, 994241998929567000000000000000000, 0, 0, 0, 0,
  998450532638447000000000000000000, 0, 0, 0, 0, 0,
  0, 0, 0, 933842956912858000000000000000000, 0, 0,
  0, 942023949041728000000000000000000, 1000000000000000000000000000000000, 0, 0, 0,
  989995241280713000000000000000000, 0, 0, 0, 0, 0,
  0, 0, 0, 0, 0, 0,
  0, 0, 0, 0, 952613167043311000000000000000000, 0,
  0, 0, 0, 0, 0, 0,
  0, 0, 0, 0, 0]

end Visqol.Svr
