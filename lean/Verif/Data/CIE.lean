import Verif.Data.Table

/-! Colour matching functions and the D65 daylight table.  Generated by `tools/gen_data.py`. -/

namespace CS.Data.CIE

/-- `CIE1931_X` (hpp:1585-1642). -/
def CIE1931_X : Table where
  scale := 11
  m := [
    136800000, 150205000, 164232800, 180238200, 199575700, 223600000, 253538500, 289260300, 330082900,
    375323600, 424300000, 476238900, 533004800, 597871200, 674111700, 765000000, 875137300, 1002888000,
    1142170000, 1286901000, 1431000000, 1570443000, 1714744000, 1878122000, 2074801000, 2319000000,
    2620736000, 2978248000, 3388092000, 3846824000, 4351000000, 4899560000, 5502260000, 6171880000,
    6921200000, 7763000000, 8695811000, 9717672000, 10840630000, 12076720000, 13438000000, 14935820000,
    16539570000, 18198310000, 19861100000, 21477000000, 23018680000, 24487970000, 25877730000, 27180790000,
    28390000000, 29494380000, 30489650000, 31378730000, 32164540000, 32850000000, 33435130000, 33921010000,
    34312130000, 34612960000, 34828000000, 34959990000, 35014740000, 35001300000, 34928700000, 34806000000,
    34637330000, 34426240000, 34180880000, 33909410000, 33620000000, 33319770000, 33004110000, 32663570000,
    32288680000, 31870000000, 31402510000, 30888400000, 30329040000, 29725790000, 29080000000, 28397010000,
    27672140000, 26891780000, 26042270000, 25110000000, 24084750000, 22985120000, 21840720000, 20681150000,
    19536000000, 18421360000, 17332730000, 16268810000, 15228330000, 14210000000, 13217860000, 12256960000,
    11327520000, 10429790000, 9564000000, 8729955000, 7930804000, 7171776000, 6458099000, 5795001000,
    5186211000, 4628152000, 4115088000, 3641283000, 3201000000, 2791720000, 2414440000, 2068700000,
    1754040000, 1470000000, 1216179000, 991996000, 796724000, 629634600, 490000000, 377717300, 294532000,
    242488000, 223629300, 240000000, 292552000, 383656000, 517484000, 698208000, 930000000, 1214949000,
    1553588000, 1947752000, 2399277000, 2910000000, 3481485000, 4112016000, 4798504000, 5537861000,
    6327000000, 7163501000, 8046224000, 8973996000, 9945645000, 10960000000, 12016740000, 13111450000,
    14236790000, 15385420000, 16550000000, 17725710000, 18914000000, 20116940000, 21336580000, 22574990000,
    23832090000, 25106680000, 26399220000, 27710170000, 29040000000, 30389120000, 31757260000, 33143840000,
    34548280000, 35970000000, 37408390000, 38863960000, 40337840000, 41831150000, 43344990000, 44879530000,
    46433600000, 48006400000, 49597130000, 51205010000, 52829590000, 54469160000, 56120940000, 57782150000,
    59450000000, 61122090000, 62797580000, 64476020000, 66156970000, 67840000000, 69523920000, 71205860000,
    72882840000, 74551880000, 76210000000, 77854320000, 79482560000, 81092640000, 82682480000, 84250000000,
    85793250000, 87308160000, 88789440000, 90231810000, 91630000000, 92979950000, 94279840000, 95527760000,
    96721790000, 97860000000, 98938560000, 99954880000, 100908920000, 101800640000, 102630000000,
    103398270000, 104098600000, 104718800000, 105246670000, 105670000000, 105979440000, 106179920000,
    106280680000, 106290960000, 106220000000, 106073520000, 105844360000, 105522440000, 105097680000,
    104560000000, 103903690000, 103136080000, 102266620000, 101304770000, 100260000000, 99136750000,
    97933140000, 96649160000, 95284790000, 93840000000, 92319400000, 90724400000, 89050200000, 87292000000,
    85444990000, 83508400000, 81494600000, 79418600000, 77295400000, 75140000000, 72958360000, 70758880000,
    68560220000, 66381040000, 64240000000, 62151490000, 60111380000, 58110520000, 56139770000, 54190000000,
    52259950000, 50354640000, 48474360000, 46619390000, 44790000000, 42986130000, 41209800000, 39464400000,
    37753330000, 36080000000, 34445630000, 32851680000, 31301920000, 29800110000, 28350000000, 26954480000,
    25611840000, 24318960000, 23072720000, 21870000000, 20709710000, 19592320000, 18517080000, 17483230000,
    16490000000, 15536670000, 14623000000, 13749000000, 12914670000, 12120000000, 11363970000, 10646500000,
    9969044000, 9333061000, 8740000000, 8190096000, 7680428000, 7207712000, 6768664000, 6360000000,
    5980685000, 5628216000, 5297104000, 4981861000, 4677000000, 4378405000, 4087536000, 3807264000,
    3540461000, 3290000000, 3056419000, 2838056000, 2634484000, 2445275000, 2270000000, 2108429000,
    1959988000, 1823732000, 1698717000, 1584000000, 1479064000, 1383132000, 1294868000, 1212920000,
    1135916000, 1062935000, 993884600, 928842200, 867885400, 811091600, 758238800, 708874600, 662731300,
    619540800, 579034600, 540982600, 505258300, 471751200, 440350700, 410945700, 383391300, 357574800,
    333434200, 310907500, 289932700, 270434800, 252302000, 235416800, 219661600, 204919000, 191096000,
    178143800, 166011000, 154645900, 143997100, 134004200, 124627500, 115847100, 107643000, 99994930,
    92873580, 86243320, 80075030, 74339600, 69007860, 64051560, 59450210, 55186460, 51242900, 47602130,
    44245360, 41151170, 38298140, 35664910, 33230110, 30975860, 28888710, 26953940, 25156820, 23482610,
    21917100, 20452580, 19084050, 17806540, 16615050, 15502360, 14462190, 13490980, 12585200, 11741300,
    10955150, 10222450, 9539445, 8902390, 8307527, 7751269, 7231304, 6745778, 6292844, 5870652, 5477028,
    5109918, 4767654, 4448567]
  len := by decide +kernel

/-- `CIE1931_Y` (hpp:1643-1700). -/
def CIE1931_Y : Table where
  scale := 11
  m := [
    3900000, 4282640, 4691460, 5158960, 5717640, 6400000, 7234421, 8221224, 9350816, 10613610, 12000000,
    13498400, 15149200, 17020800, 19181600, 21700000, 24690670, 28124000, 31852000, 35726670, 39600000,
    43371470, 47302400, 51787600, 57221870, 64000000, 72456000, 82550000, 94116000, 106988000, 121000000,
    136209100, 153075200, 172036800, 193532300, 218000000, 245480000, 276400000, 311780000, 352640000,
    400000000, 454624000, 515932000, 582928000, 654616000, 730000000, 808650700, 890872000, 976768000,
    1066443000, 1160000000, 1257317000, 1358272000, 1462968000, 1571509000, 1684000000, 1800736000,
    1921448000, 2045392000, 2171824000, 2300000000, 2429461000, 2561024000, 2695857000, 2835125000,
    2980000000, 3131083000, 3288368000, 3452112000, 3622571000, 3800000000, 3984667000, 4176800000,
    4376600000, 4584267000, 4800000000, 5024368000, 5257304000, 5498056000, 5745872000, 6000000000,
    6260197000, 6527752000, 6804208000, 7091109000, 7390000000, 7701600000, 8026640000, 8366680000,
    8723280000, 9098000000, 9491755000, 9904584000, 10336740000, 10788460000, 11260000000, 11753200000,
    12267440000, 12799280000, 13345280000, 13902000000, 14467640000, 15046930000, 15646190000, 16271770000,
    16930000000, 17624310000, 18355810000, 19127350000, 19941800000, 20802000000, 21711990000, 22673450000,
    23685710000, 24748120000, 25860000000, 27018490000, 28229390000, 29505050000, 30857800000, 32300000000,
    33840210000, 35468580000, 37169860000, 38928750000, 40730000000, 42562990000, 44430960000, 46339440000,
    48293950000, 50300000000, 52356930000, 54451200000, 56569000000, 58696530000, 60820000000, 62934560000,
    65030680000, 67087520000, 69084240000, 71000000000, 72818520000, 74546360000, 76196940000, 77783680000,
    79320000000, 80811040000, 82249620000, 83630680000, 84949160000, 86200000000, 87381080000, 88496240000,
    89549360000, 90544320000, 91485010000, 92373480000, 93209240000, 93992260000, 94722520000, 95400000000,
    96025610000, 96600740000, 97126060000, 97602250000, 98030000000, 98409240000, 98741820000, 99031280000,
    99281160000, 99495010000, 99671080000, 99809830000, 99911200000, 99974820000, 100000000000, 99985670000,
    99930460000, 99832550000, 99689870000, 99500000000, 99260050000, 98974260000, 98644440000, 98272410000,
    97860000000, 97408370000, 96917120000, 96385680000, 95813490000, 95200000000, 94545040000, 93849920000,
    93116280000, 92345760000, 91540000000, 90700640000, 89827720000, 88920480000, 87978160000, 87000000000,
    85986130000, 84939200000, 83862200000, 82758130000, 81630000000, 80479470000, 79308200000, 78119200000,
    76915470000, 75700000000, 74475410000, 73242240000, 72000360000, 70749650000, 69490000000, 68221920000,
    66947160000, 65667440000, 64384480000, 63100000000, 61815550000, 60531440000, 59247560000, 57963790000,
    56680000000, 55396110000, 54113720000, 52835280000, 51563230000, 50300000000, 49046880000, 47803040000,
    46567760000, 45340320000, 44120000000, 42908000000, 41703600000, 40503200000, 39303200000, 38100000000,
    36891840000, 35682720000, 34477680000, 33281760000, 32100000000, 30933810000, 29785040000, 28659360000,
    27562450000, 26500000000, 25476320000, 24488960000, 23533440000, 22605280000, 21700000000, 20816160000,
    19954880000, 19115520000, 18297440000, 17500000000, 16722350000, 15964640000, 15227760000, 14512590000,
    13820000000, 13150030000, 12502480000, 11877920000, 11276910000, 10700000000, 10147620000, 9618864000,
    9112296000, 8626485000, 8160000000, 7712064000, 7282552000, 6871008000, 6476976000, 6100000000,
    5739621000, 5395504000, 5067376000, 4754965000, 4458000000, 4175872000, 3908496000, 3656384000,
    3420048000, 3200000000, 2996261000, 2807664000, 2632936000, 2470805000, 2320000000, 2180077000,
    2050112000, 1928108000, 1812069000, 1700000000, 1590379000, 1483718000, 1381068000, 1283478000,
    1192000000, 1106831000, 1027339000, 953331100, 884615700, 821000000, 762378100, 708542400, 659147600,
    613848500, 572300000, 534305900, 499579600, 467640400, 438007500, 410200000, 383845300, 358909900,
    335421900, 313409300, 292900000, 273813900, 255987600, 239324400, 223727500, 209100000, 195358700,
    182458000, 170358000, 159018700, 148400000, 138449600, 129126800, 120409200, 112274400, 104700000,
    97658960, 91110880, 85013320, 79323840, 74000000, 69008270, 64331000, 59949600, 55845470, 52000000,
    48391360, 45005280, 41834520, 38871840, 36110000, 33538350, 31144040, 28916560, 26845390, 24920000,
    23130190, 21468560, 19928840, 18504750, 17190000, 15977810, 14860440, 13830160, 12879250, 12000000,
    11185950, 10432240, 9733560, 9084587, 8480000, 7914667, 7385800, 6891600, 6430267, 6000000, 5598187,
    5222560, 4871840, 4544747, 4240000, 3956104, 3691512, 3444868, 3214816, 3000000, 2799125, 2611356,
    2436024, 2272461, 2120000, 1977855, 1845285, 1721687, 1606459]
  len := by decide +kernel

/-- `CIE1931_Z` (hpp:1701-1758). -/
def CIE1931_Z : Table where
  scale := 11
  m := [
    645000100, 708321600, 774548800, 850115200, 941454400, 1054999000, 1196580000, 1365587000, 1558805000,
    1773015000, 2005001000, 2251136000, 2520288000, 2827972000, 3189704000, 3621000000, 4143771000,
    4750372000, 5411988000, 6099803000, 6785001000, 7448632000, 8136156000, 8915364000, 9854048000,
    11020000000, 12461330000, 14170170000, 16130350000, 18325680000, 20740000000, 23369210000, 26261140000,
    29477460000, 33079850000, 37130000000, 41620910000, 46546420000, 51969480000, 57953030000, 64560000000,
    71848380000, 79671330000, 87784590000, 95943900000, 103905010000, 111536730000, 118849710000,
    125812330000, 132392960000, 138560000000, 144263520000, 149480350000, 154219030000, 158488070000,
    162296000000, 165640480000, 168529590000, 170987450000, 173038210000, 174706000000, 176004460000,
    176962330000, 177626370000, 178043340000, 178260000000, 178296820000, 178169980000, 177919820000,
    177586710000, 177211000000, 176825890000, 176403900000, 175894380000, 175246630000, 174410000000,
    173355950000, 172085810000, 170593690000, 168873720000, 166920000000, 164752870000, 162341270000,
    159602230000, 156452800000, 152810000000, 148611140000, 143952150000, 138987990000, 133873620000,
    128764000000, 123742230000, 118782430000, 113876110000, 109014800000, 104190000000, 99419760000,
    94734730000, 90145310000, 85661930000, 81295010000, 77051730000, 72944480000, 68991360000, 65210490000,
    61620000000, 58232860000, 55041620000, 52033760000, 49196730000, 46518000000, 43992460000, 41618360000,
    39388220000, 37294590000, 35330000000, 33485780000, 31755210000, 30133750000, 28616860000, 27200000000,
    25881710000, 24648380000, 23477180000, 22345330000, 21230000000, 20116920000, 19011960000, 17922540000,
    16856080000, 15820000000, 14813830000, 13837580000, 12899420000, 12007510000, 11170000000, 10390480000,
    9666748000, 8998272000, 8384531000, 7824999000, 7320899000, 6867816000, 6456784000, 6078835000,
    5725001000, 5390435000, 5074664000, 4775276000, 4489859000, 4216000000, 3950728000, 3693564000,
    3445836000, 3208872000, 2984000000, 2771181000, 2569444000, 2378716000, 2198925000, 2030000000,
    1871805000, 1724036000, 1586364000, 1458461000, 1340000000, 1230723000, 1130188000, 1037792000,
    952930600, 874999900, 803520000, 738160000, 678540000, 624280000, 574999900, 530360000, 489980000,
    453420000, 420240000, 390000000, 362320000, 337060000, 314140000, 293480000, 274999900, 258520000,
    243860000, 230940000, 219680000, 210000000, 201773300, 194820000, 188980000, 184093300, 180000000,
    176626700, 173780000, 171120000, 168306700, 165000100, 161013300, 156440000, 151360000, 145853300,
    140000000, 133666700, 127000000, 120500000, 114666700, 110000000, 106880000, 104940000, 103560000,
    102120000, 100000000, 96864000, 92992000, 88688000, 84256000, 80000000, 76096000, 72368000, 68592000,
    64544000, 60000000, 54786670, 49160000, 43540000, 38346670, 34000000, 30725330, 28316000, 26544000,
    25181330, 24000000, 22954670, 22064000, 21196000, 20218670, 19000000, 17421330, 15564000, 13596000,
    11685330, 10000000, 8613333, 7460000, 6500000, 5693333, 4999999, 4416000, 3948000, 3572000, 3264000,
    3000000, 2765333, 2556000, 2364000, 2181333, 2000000, 1813333, 1620000, 1420000, 1213333, 1000000,
    773333, 540000, 320000, 133333, 0, 0, 0, 0, 0, 0, 0, 0, 0, 0, 0, 0, 0, 0, 0, 0, 0, 0, 0, 0, 0, 0, 0, 0,
    0, 0, 0, 0, 0, 0, 0, 0, 0, 0, 0, 0, 0, 0, 0, 0, 0, 0, 0, 0, 0, 0, 0, 0, 0, 0, 0, 0, 0, 0, 0, 0, 0, 0, 0,
    0, 0, 0, 0, 0, 0, 0, 0, 0, 0, 0, 0, 0, 0, 0, 0, 0, 0, 0, 0, 0, 0, 0, 0, 0, 0, 0, 0, 0, 0, 0, 0, 0, 0, 0,
    0, 0, 0, 0, 0, 0, 0, 0, 0, 0, 0, 0, 0, 0, 0, 0, 0, 0, 0, 0, 0, 0, 0, 0, 0, 0, 0, 0, 0, 0, 0, 0, 0, 0, 0,
    0]
  len := by decide +kernel

/-- `CIE2012_X` (hpp:1760-1817). -/
def CIE2012_X : Table where
  scale := 10
  m := [
    0, 0, 0, 0, 0, 0, 0, 0, 0, 0, 37696470, 45324160, 54465530, 65388680, 78396990, 93829670, 112060800,
    133496500, 158569000, 187728600, 221430200, 260128500, 304303600, 354432500, 410964000, 474298600,
    544739400, 622361200, 707004800, 798251300, 895380300, 997484800, 1104019000, 1214566000, 1328741000,
    1446214000, 1566468000, 1687901000, 1808328000, 1925216000, 2035729000, 2137531000, 2231348000,
    2319245000, 2403892000, 2488523000, 2575896000, 2664991000, 2753532000, 2838921000, 2918246000,
    2989200000, 3052993000, 3112031000, 3169047000, 3227087000, 3288194000, 3349242000, 3405452000,
    3451688000, 3482554000, 3494153000, 3489075000, 3471746000, 3446705000, 3418483000, 3390240000,
    3359926000, 3324276000, 3280157000, 3224637000, 3156225000, 3078201000, 2994771000, 2909776000,
    2826646000, 2747962000, 2674312000, 2605847000, 2542749000, 2485254000, 2433039000, 2383414000,
    2333253000, 2279619000, 2219781000, 2151735000, 2075619000, 1992183000, 1902290000, 1806905000,
    1707154000, 1604471000, 1500244000, 1395705000, 1291920000, 1189859000, 1090615000, 995142400,
    904185000, 818289500, 737681700, 661947700, 590638000, 523424200, 460086500, 400615400, 345437300,
    294909100, 249214000, 208398100, 172359100, 140792400, 113451600, 90196580, 70977310, 55711450,
    43945660, 35163030, 28876380, 24615880, 22063480, 21495590, 23370910, 28189310, 36491780, 48913590,
    66293640, 89429020, 119022400, 155698900, 199766800, 250469800, 306753000, 367499900, 431517100,
    497858400, 566855400, 639165100, 715435200, 796291700, 882147300, 972697800, 1067504000, 1166192000,
    1268468000, 1374060000, 1482471000, 1593076000, 1705181000, 1818026000, 1931090000, 2045085000,
    2161166000, 2280650000, 2405015000, 2535441000, 2671300000, 2811351000, 2954164000, 3098117000,
    3241678000, 3384319000, 3525786000, 3665839000, 3804244000, 3940988000, 4076972000, 4213484000,
    4352003000, 4494206000, 4641616000, 4794395000, 4952180000, 5114395000, 5280233000, 5448696000,
    5618898000, 5790137000, 5961882000, 6133784000, 6305897000, 6479223000, 6654866000, 6833782000,
    7016774000, 7204110000, 7394495000, 7586285000, 7777885000, 7967750000, 8154530000, 8337389000,
    8515493000, 8687862000, 8853376000, 9011588000, 9165278000, 9318245000, 9474524000, 9638388000,
    9812596000, 9992953000, 10173430000, 10347900000, 10510110000, 10655220000, 10784210000, 10899440000,
    11003200000, 11097670000, 11184380000, 11262660000, 11331380000, 11389520000, 11436200000, 11470950000,
    11494640000, 11508380000, 11513260000, 11510330000, 11500020000, 11480610000, 11449980000, 11406220000,
    11347570000, 11272980000, 11183420000, 11080330000, 10965150000, 10839280000, 10703870000, 10559340000,
    10405920000, 10243850000, 10073440000, 9895268000, 9711213000, 9523257000, 9333248000, 9142877000,
    8952798000, 8760157000, 8561607000, 8354235000, 8135565000, 7904565000, 7664364000, 7418777000,
    7171219000, 6924717000, 6681600000, 6442697000, 6208450000, 5979243000, 5755410000, 5537296000,
    5325412000, 5120218000, 4922070000, 4731224000, 4547417000, 4368719000, 4193121000, 4018980000,
    3844986000, 3670592000, 3497167000, 3326305000, 3159341000, 2997374000, 2841189000, 2691053000,
    2547077000, 2409319000, 2277792000, 2152431000, 2033010000, 1919276000, 1810987000, 1707914000,
    1609842000, 1516577000, 1427936000, 1343737000, 1263808000, 1187979000, 1116088000, 1047975000,
    983483500, 922459700, 864750600, 810198600, 758651400, 709963300, 663996000, 620622500, 579740900,
    541253300, 505060000, 471060600, 439141100, 409141100, 380906700, 354303400, 329213800, 305567200,
    283414600, 262803300, 243746500, 226230600, 210193500, 195464700, 181872700, 169272700, 157541700,
    146585400, 136357100, 126820500, 117939400, 109677800, 101996400, 94843170, 88168510, 81929210,
    76087500, 70613910, 65495090, 60719700, 56274760, 52146080, 48318480, 44775790, 41501660, 38479880,
    35694520, 33128570, 30760220, 28568940, 26536810, 24648210, 22890600, 21256940, 19741210, 18337230,
    17038760, 15839040, 14729390, 13701510, 12748030, 11862380, 11038710, 10271940, 9557493, 8891262,
    8269535, 7689351, 7149425, 6648590, 6185421, 5758303, 5365046, 5001842, 4665005, 4351386, 4058303,
    3783733, 3526892, 3287199, 3063998, 2856577, 2664108, 2485462, 2319529, 2165300, 2021853, 1888338,
    1763935, 1647895, 1539542, 1438270, 1343572, 1255141, 1172706, 1095983, 1024685, 958472, 896832, 839273,
    785371, 734755, 687158, 642526, 600829, 562010, 525987, 492628, 461662, 432821, 405872]
  len := by decide +kernel

/-- `CIE2012_Y` (hpp:1819-1876). -/
def CIE2012_Y : Table where
  scale := 10
  m := [
    0, 0, 0, 0, 0, 0, 0, 0, 0, 0, 4146161, 5028333, 6084991, 7344436, 8837389, 10596460, 12655320, 15047530,
    17804930, 20955720, 24521940, 28522160, 32991150, 37974660, 43527680, 49717170, 56610140, 64216150,
    72503120, 81401730, 90798600, 100560800, 110645600, 121052200, 131801400, 142937700, 154500400,
    166409300, 178530200, 190701800, 202736900, 214480500, 226004100, 237478900, 249124700, 261210600,
    273992300, 287499300, 301690900, 316514500, 331903800, 347791200, 364149500, 380956900, 398184300,
    415794000, 433709800, 451718000, 469542000, 486871800, 503365700, 518761100, 533221800, 547060300,
    560633500, 574339300, 588510700, 603080900, 617864400, 632657000, 647235200, 661474900, 675725600,
    690492800, 706328000, 723833900, 743596000, 765938300, 791143600, 819534500, 851481600, 887265700,
    926600800, 968972300, 1013746000, 1060145000, 1107377000, 1155111000, 1203122000, 1251161000,
    1298957000, 1346299000, 1393309000, 1440235000, 1487372000, 1535066000, 1583644000, 1633199000,
    1683761000, 1735365000, 1788048000, 1841819000, 1896559000, 1952101000, 2008259000, 2064828000,
    2121826000, 2180279000, 2241586000, 2307302000, 2379160000, 2458706000, 2546023000, 2640760000,
    2742490000, 2850680000, 2964837000, 3085010000, 3211393000, 3344175000, 3483536000, 3629601000,
    3782275000, 3941359000, 4106582000, 4277595000, 4453993000, 4635396000, 4821376000, 5011430000,
    5204972000, 5401387000, 5600208000, 5800972000, 6003172000, 6206256000, 6409398000, 6610772000,
    6808134000, 6999044000, 7180890000, 7351593000, 7511821000, 7663143000, 7807352000, 7946448000,
    8082074000, 8213817000, 8340701000, 8461711000, 8575799000, 8682408000, 8783061000, 8879907000,
    8975211000, 9071347000, 9169947000, 9269295000, 9366731000, 9459482000, 9544675000, 9619834000,
    9684390000, 9738289000, 9781519000, 9814106000, 9836669000, 9852081000, 9863813000, 9875357000,
    9890228000, 9910811000, 9934913000, 9959172000, 9980205000, 9994608000, 9999930000, 9997557000,
    9989839000, 9979123000, 9967737000, 9957356000, 9947115000, 9935534000, 9921156000, 9902549000,
    9878596000, 9849324000, 9815036000, 9776035000, 9732611000, 9684764000, 9631369000, 9571062000,
    9502540000, 9424569000, 9336897000, 9242893000, 9146707000, 9052333000, 8963613000, 8883069000,
    8808462000, 8736445000, 8663755000, 8587203000, 8504295000, 8415047000, 8320109000, 8220154000,
    8115868000, 8007874000, 7896515000, 7782053000, 7664733000, 7544785000, 7422473000, 7298229000,
    7172525000, 7045818000, 6918553000, 6791009000, 6662846000, 6533595000, 6402807000, 6270066000,
    6135148000, 5998494000, 5860682000, 5722261000, 5583746000, 5445535000, 5307673000, 5170130000,
    5032889000, 4895950000, 4759442000, 4623958000, 4490154000, 4358622000, 4229897000, 4104152000,
    3980356000, 3857300000, 3733907000, 3609245000, 3482860000, 3355702000, 3228963000, 3103704000,
    2980865000, 2861160000, 2744822000, 2631953000, 2522628000, 2416902000, 2314809000, 2216378000,
    2121622000, 2030542000, 1943124000, 1859227000, 1778274000, 1699654000, 1622841000, 1547397000,
    1473081000, 1400169000, 1329013000, 1259913000, 1193120000, 1128820000, 1067113000, 1008052000,
    951665300, 897959400, 846904400, 798400900, 752337200, 708606100, 667104500, 627736000, 590417900,
    555070300, 521613900, 489969900, 460057800, 431788500, 405075500, 379837600, 355998200, 333485600,
    312233200, 292178000, 273260100, 255422300, 238612100, 222785900, 207902000, 193918500, 180793900,
    168481700, 156918800, 146044600, 135806200, 126157300, 117069600, 108560800, 100647600, 93333760,
    86612840, 80460480, 74811300, 69599870, 64770700, 60276770, 56081690, 52166910, 48517850, 45120080,
    41959410, 39020570, 36283710, 33730050, 31343150, 29108640, 27015280, 25057960, 23232310, 21533330,
    19955570, 18493160, 17139760, 15888990, 14734530, 13670220, 12689540, 11784210, 10946440, 10169430,
    9447269, 8775171, 8150438, 7570755, 7033755, 6537050, 6078048, 5653435, 5260046, 4895061, 4555970,
    4240548, 3946860, 3673178, 3417941, 3179738, 2957441, 2750558, 2558640, 2381142, 2217445, 2066711,
    1927474, 1798315, 1678023, 1565566, 1460168, 1361535, 1269451, 1183671, 1103928, 1029908, 961184,
    897332, 837969, 782744, 731331, 683414, 638704, 596939, 557886, 521351, 487218, 455385, 425744, 398188,
    372588, 348747, 326477, 305614, 286018, 267584, 250294, 234137, 219091, 205126, 192190, 180180, 168990,
    158531]
  len := by decide +kernel

/-- `CIE2012_Z` (hpp:1877-1934). -/
def CIE2012_Z : Table where
  scale := 10
  m := [
    0, 0, 0, 0, 0, 0, 0, 0, 0, 0, 184726000, 222110100, 266981900, 320693700, 384783200, 460978400,
    551195300, 657525700, 782211300, 927601300, 1096090000, 1290077000, 1512047000, 1764441000, 2049517000,
    2369246000, 2725123000, 3117820000, 3547064000, 4011473000, 4508369000, 5034164000, 5586361000,
    6162734000, 6760982000, 7378822000, 8013019000, 8655573000, 9295791000, 9921293000, 10518210000,
    11075090000, 11595270000, 12088690000, 12568340000, 13050080000, 13547580000, 14055940000, 14564140000,
    15059600000, 15528260000, 15959020000, 16357680000, 16735730000, 17106040000, 17482800000, 17875040000,
    18266090000, 18631080000, 18943320000, 19174790000, 19305290000, 19348190000, 19326500000, 19263950000,
    19184370000, 19104300000, 19012240000, 18890000000, 18719960000, 18485450000, 18177920000, 17816270000,
    17425140000, 17027490000, 16644390000, 16292070000, 15973600000, 15688960000, 15438230000, 15221570000,
    15036110000, 14866730000, 14695950000, 14507090000, 14284400000, 14015870000, 13700940000, 13342200000,
    12942750000, 12506100000, 12036960000, 11543160000, 11032840000, 10513470000, 9991789000, 9473958000,
    8966222000, 8473981000, 8001576000, 7552379000, 7127879000, 6725198000, 6340976000, 5972433000,
    5617313000, 5274921000, 4948809000, 4642586000, 4358841000, 4099313000, 3864261000, 3650566000,
    3454812000, 3274095000, 3105939000, 2948102000, 2798194000, 2654100000, 2514084000, 2376753000,
    2241211000, 2107484000, 1975839000, 1846574000, 1720018000, 1596918000, 1479415000, 1369428000,
    1268279000, 1176796000, 1094970000, 1020943000, 952799300, 889007500, 828354800, 770098200, 714400100,
    661543600, 611719900, 565040700, 521512100, 480956600, 443172000, 407973400, 375191200, 344684600,
    316376400, 290190100, 266036400, 243816400, 223409700, 204641500, 187345600, 171378800, 156617400,
    142964400, 130370200, 118789700, 108172500, 98464700, 89606870, 81528110, 74160250, 67441150, 61314210,
    55727780, 50634630, 45991690, 41759710, 37902910, 34389520, 31193410, 28290380, 25657220, 23271860,
    21112800, 19157660, 17385890, 15779200, 14321280, 12997810, 11796670, 10706940, 9718623, 8822531,
    8010231, 7273884, 6606347, 6001146, 5452416, 4954847, 4503642, 4094455, 3723345, 3386739, 3081396,
    2804370, 2552996, 2324859, 2117772, 1929758, 1759024, 1603947, 1463059, 1335031, 1218660, 1112857,
    1016634, 929100, 849447, 776943, 710925, 650794, 596006, 546071, 500542, 459016, 421127, 386544, 354966,
    326122, 299764, 275669, 253634, 233474, 215022, 198127, 182650, 168467, 155463, 143536, 132592, 122544,
    113317, 104839, 0, 0, 0, 0, 0, 0, 0, 0, 0, 0, 0, 0, 0, 0, 0, 0, 0, 0, 0, 0, 0, 0, 0, 0, 0, 0, 0, 0, 0,
    0, 0, 0, 0, 0, 0, 0, 0, 0, 0, 0, 0, 0, 0, 0, 0, 0, 0, 0, 0, 0, 0, 0, 0, 0, 0, 0, 0, 0, 0, 0, 0, 0, 0, 0,
    0, 0, 0, 0, 0, 0, 0, 0, 0, 0, 0, 0, 0, 0, 0, 0, 0, 0, 0, 0, 0, 0, 0, 0, 0, 0, 0, 0, 0, 0, 0, 0, 0, 0, 0,
    0, 0, 0, 0, 0, 0, 0, 0, 0, 0, 0, 0, 0, 0, 0, 0, 0, 0, 0, 0, 0, 0, 0, 0, 0, 0, 0, 0, 0, 0, 0, 0, 0, 0, 0,
    0, 0, 0, 0, 0, 0, 0, 0, 0, 0, 0, 0, 0, 0, 0, 0, 0, 0, 0, 0, 0, 0, 0, 0, 0, 0, 0, 0, 0, 0]
  len := by decide +kernel

/-- `CIE1931_JuddVos_X` (hpp:1937-1979). -/
def CIE1931_JuddVos_X : Table where
  scale := 10
  m := [
    26899000, 32140200, 37381400, 42622600, 47863800, 53105000, 64046000, 74987000, 85928000, 96869000,
    107810000, 127832000, 147854000, 167876000, 187898000, 207920000, 242298000, 276676000, 311054000,
    345432000, 379810000, 430162000, 480514000, 530866000, 581218000, 631570000, 705138000, 778706000,
    852274000, 925842000, 999410000, 1116008000, 1232606000, 1349204000, 1465802000, 1582400000, 1724880000,
    1867360000, 2009840000, 2152320000, 2294800000, 2398000000, 2501200000, 2604400000, 2707600000,
    2810800000, 2870540000, 2930280000, 2990020000, 3049760000, 3109500000, 3149040000, 3188580000,
    3228120000, 3267660000, 3307200000, 3312480000, 3317760000, 3323040000, 3328320000, 3333600000,
    3300320000, 3267040000, 3233760000, 3200480000, 3167200000, 3111400000, 3055600000, 2999800000,
    2944000000, 2888200000, 2829940000, 2771680000, 2713420000, 2655160000, 2596900000, 2543040000,
    2489180000, 2435320000, 2381460000, 2327600000, 2282060000, 2236520000, 2190980000, 2145440000,
    2099900000, 2029440000, 1958980000, 1888520000, 1818060000, 1747600000, 1663820000, 1580040000,
    1496260000, 1412480000, 1328700000, 1246848000, 1164996000, 1083144000, 1001292000, 919440000,
    849522000, 779604000, 709686000, 639768000, 569850000, 519342000, 468834000, 418326000, 367818000,
    317310000, 283074000, 248838000, 214602000, 180366000, 146130000, 126602200, 107074400, 87546600,
    68018800, 48491000, 43435800, 38380600, 33325400, 28270200, 23215000, 37151800, 51088600, 65025400,
    78962200, 92899000, 132875200, 172851400, 212827600, 252803800, 292780000, 361806000, 430832000,
    499858000, 568884000, 637910000, 731948000, 825986000, 920024000, 1014062000, 1108100000, 1220320000,
    1332540000, 1444760000, 1556980000, 1669200000, 1790720000, 1912240000, 2033760000, 2155280000,
    2276800000, 2406820000, 2536840000, 2666860000, 2796880000, 2926900000, 3066020000, 3205140000,
    3344260000, 3483380000, 3622500000, 3770700000, 3918900000, 4067100000, 4215300000, 4363500000,
    4521060000, 4678620000, 4836180000, 4993740000, 5151300000, 5316000000, 5480700000, 5645400000,
    5810100000, 5974800000, 6142260000, 6309720000, 6477180000, 6644640000, 6812100000, 6978180000,
    7144260000, 7310340000, 7476420000, 7642500000, 7801880000, 7961260000, 8120640000, 8280020000,
    8439400000, 8584220000, 8729040000, 8873860000, 9018680000, 9163500000, 9284860000, 9406220000,
    9527580000, 9648940000, 9770300000, 9862240000, 9954180000, 10046120000, 10138060000, 10230000000,
    10286600000, 10343200000, 10399800000, 10456400000, 10513000000, 10520400000, 10527800000, 10535200000,
    10542600000, 10550000000, 10512400000, 10474800000, 10437200000, 10399600000, 10362000000, 10274380000,
    10186760000, 10099140000, 10011520000, 9923900000, 9796340000, 9668780000, 9541220000, 9413660000,
    9286100000, 9115800000, 8945500000, 8775200000, 8604900000, 8434600000, 8227340000, 8020080000,
    7812820000, 7605560000, 7398300000, 7184420000, 6970540000, 6756660000, 6542780000, 6328900000,
    6130140000, 5931380000, 5732620000, 5533860000, 5335100000, 5149320000, 4963540000, 4777760000,
    4591980000, 4406200000, 4234020000, 4061840000, 3889660000, 3717480000, 3545300000, 3393480000,
    3241660000, 3089840000, 2938020000, 2786200000, 2658660000, 2531120000, 2403580000, 2276040000,
    2148500000, 2042020000, 1935540000, 1829060000, 1722580000, 1616100000, 1529280000, 1442460000,
    1355640000, 1268820000, 1182000000, 1117106000, 1052212000, 987318000, 922424000, 857530000, 812178000,
    766826000, 721474000, 676122000, 630770000, 596284000, 561798000, 527312000, 492826000, 458340000,
    430786000, 403232000, 375678000, 348124000, 320570000, 300830000, 281090000, 261350000, 241610000,
    221870000, 208720000, 195570000, 182420000, 169270000, 156120000, 147092000, 138064000, 129036000,
    120008000, 110980000, 104630600, 98281200, 91931800, 85582400, 79233000, 74692600, 70152200, 65611800,
    61071400, 56531000, 53232600, 49934200, 46635800, 43337400, 40039000, 37681800, 35324600, 32967400,
    30610200, 28253000, 26591800, 24930600, 23269400, 21608200, 19947000, 18756400, 17565800, 16375200,
    15184600, 13994000, 13134800, 12275600, 11416400, 10557200, 9698000, 9095340, 8492680, 7890020, 7287360,
    6684700, 6270580, 5856460, 5442340, 5028220, 4614100, 4332740, 4051380, 3770020, 3488660, 3207300,
    3017300, 2827300, 2637300, 2447300, 2257300, 2125300, 1993300, 1861300, 1729300, 1597300, 1503340,
    1409380, 1315420, 1221460, 1127500, 1061030, 994552, 928078, 861604, 795130, 748278, 701426, 654574,
    607722, 560870, 527778, 494686, 461594, 428502]
  len := by decide +kernel

/-- `CIE1931_JuddVos_Y` (hpp:1981-2021). -/
def CIE1931_JuddVos_Y : Table where
  scale := 10
  m := [
    2000000, 2391120, 2782240, 3173360, 3564480, 3955600, 4764480, 5573360, 6382240, 7191120, 8000000,
    9491400, 10982800, 12474200, 13965600, 15457000, 17965600, 20474200, 22982800, 25491400, 28000000,
    31712400, 35424800, 39137200, 42849600, 46562000, 52049600, 57537200, 63024800, 68512400, 74000000,
    82758000, 91516000, 100274000, 109032000, 117790000, 129232000, 140674000, 152116000, 163558000,
    175000000, 185356000, 195712000, 206068000, 216424000, 226780000, 236024000, 245268000, 254512000,
    263756000, 273000000, 283568000, 294136000, 304704000, 315272000, 325840000, 336472000, 347104000,
    357736000, 368368000, 379000000, 387982000, 396964000, 405946000, 414928000, 423910000, 432728000,
    441546000, 450364000, 459182000, 468000000, 478644000, 489288000, 499932000, 510576000, 521220000,
    536976000, 552732000, 568488000, 584244000, 600000000, 625884000, 651768000, 677652000, 703536000,
    729420000, 765496000, 801572000, 837648000, 873724000, 909800000, 953520000, 997240000, 1040960000,
    1084680000, 1128400000, 1180760000, 1233120000, 1285480000, 1337840000, 1390200000, 1451900000,
    1513600000, 1575300000, 1637000000, 1698700000, 1775000000, 1851300000, 1927600000, 2003900000,
    2080200000, 2180320000, 2280440000, 2380560000, 2480680000, 2580800000, 2710640000, 2840480000,
    2970320000, 3100160000, 3230000000, 3394800000, 3559600000, 3724400000, 3889200000, 4054000000,
    4249200000, 4444400000, 4639600000, 4834800000, 5030000000, 5240220000, 5450440000, 5660660000,
    5870880000, 6081100000, 6284880000, 6488660000, 6692440000, 6896220000, 7100000000, 7270200000,
    7440400000, 7610600000, 7780800000, 7951000000, 8084800000, 8218600000, 8352400000, 8486200000,
    8620000000, 8726100000, 8832200000, 8938300000, 9044400000, 9150500000, 9228400000, 9306300000,
    9384200000, 9462100000, 9540000000, 9592080000, 9644160000, 9696240000, 9748320000, 9800400000,
    9830220000, 9860040000, 9889860000, 9919680000, 9949500000, 9959800000, 9970100000, 9980400000,
    9990700000, 10001000000, 9990800000, 9980600000, 9970400000, 9960200000, 9950000000, 9917500000,
    9885000000, 9852500000, 9820000000, 9787500000, 9734000000, 9680500000, 9627000000, 9573500000,
    9520000000, 9447160000, 9374320000, 9301480000, 9228640000, 9155800000, 9064640000, 8973480000,
    8882320000, 8791160000, 8700000000, 8592460000, 8484920000, 8377380000, 8269840000, 8162300000,
    8043840000, 7925380000, 7806920000, 7688460000, 7570000000, 7445660000, 7321320000, 7196980000,
    7072640000, 6948300000, 6820640000, 6692980000, 6565320000, 6437660000, 6310000000, 6181080000,
    6052160000, 5923240000, 5794320000, 5665400000, 5538320000, 5411240000, 5284160000, 5157080000,
    5030000000, 4907440000, 4784880000, 4662320000, 4539760000, 4417200000, 4295760000, 4174320000,
    4052880000, 3931440000, 3810000000, 3689040000, 3568080000, 3447120000, 3326160000, 3205200000,
    3094160000, 2983120000, 2872080000, 2761040000, 2650000000, 2554040000, 2458080000, 2362120000,
    2266160000, 2170200000, 2086160000, 2002120000, 1918080000, 1834040000, 1750000000, 1676240000,
    1602480000, 1528720000, 1454960000, 1381200000, 1318960000, 1256720000, 1194480000, 1132240000,
    1070000000, 1019304000, 968608000, 917912000, 867216000, 816520000, 775216000, 733912000, 692608000,
    651304000, 610000000, 576654000, 543308000, 509962000, 476616000, 443270000, 418616000, 393962000,
    369308000, 344654000, 320000000, 302908000, 285816000, 268724000, 251632000, 234540000, 221632000,
    208724000, 195816000, 182908000, 170000000, 159744000, 149488000, 139232000, 128976000, 118720000,
    111396000, 104072000, 96748000, 89424000, 82100000, 77224600, 72349200, 67473800, 62598400, 57723000,
    54382400, 51041800, 47701200, 44360600, 41020000, 38674200, 36328400, 33982600, 31636800, 29291000,
    27614800, 25938600, 24262400, 22586200, 20910000, 19692400, 18474800, 17257200, 16039600, 14822000,
    13951600, 13081200, 12210800, 11340400, 10470000, 9856300, 9242600, 8628900, 8015200, 7401500, 6961200,
    6520900, 6080600, 5640300, 5200000, 4881860, 4563720, 4245580, 3927440, 3609300, 3385840, 3162380,
    2938920, 2715460, 2492000, 2338220, 2184440, 2030660, 1876880, 1723100, 1618480, 1513860, 1409240,
    1304620, 1200000, 1129240, 1058480, 987720, 916960, 846200, 796960, 747720, 698480, 649240, 600000,
    564892, 529784, 494676, 459568, 424460, 399568, 374676, 349784, 324892, 300000, 282420, 264840, 247260,
    229680, 212100, 199658, 187216, 174774, 162332]
  len := by decide +kernel

/-- `CIE1931_JuddVos_Z` (hpp:2023-2067). -/
def CIE1931_JuddVos_Z : Table where
  scale := 14
  m := [
    1226000000000, 1465240000000, 1704480000000, 1943720000000, 2182960000000, 2422200000000, 2922760000000,
    3423320000000, 3923880000000, 4424440000000, 4925000000000, 5842700000000, 6760400000000, 7678100000000,
    8595800000000, 9513500000000, 11092600000000, 12671700000000, 14250800000000, 15829900000000,
    17409000000000, 19729800000000, 22050600000000, 24371400000000, 26692200000000, 29013000000000,
    32421000000000, 35829000000000, 39237000000000, 42645000000000, 46053000000000, 51475600000000,
    56898200000000, 62320800000000, 67743400000000, 73166000000000, 79848800000000, 86531600000000,
    93214400000000, 99897200000000, 106580000000000, 111556000000000, 116532000000000, 121508000000000,
    126484000000000, 131460000000000, 134512000000000, 137564000000000, 140616000000000, 143668000000000,
    146720000000000, 148968000000000, 151216000000000, 153464000000000, 155712000000000, 157960000000000,
    158700000000000, 159440000000000, 160180000000000, 160920000000000, 161660000000000, 160692000000000,
    159724000000000, 158756000000000, 157788000000000, 156820000000000, 154890000000000, 152960000000000,
    151030000000000, 149100000000000, 147170000000000, 145216000000000, 143262000000000, 141308000000000,
    139354000000000, 137400000000000, 135754000000000, 134108000000000, 132462000000000, 130816000000000,
    129170000000000, 128048000000000, 126926000000000, 125804000000000, 124682000000000, 123560000000000,
    121124000000000, 118688000000000, 116252000000000, 113816000000000, 111380000000000, 107948000000000,
    104516000000000, 101084000000000, 97652000000000, 94220000000000, 90495200000000, 86770400000000,
    83045600000000, 79320800000000, 75596000000000, 72204800000000, 68813600000000, 65422400000000,
    62031200000000, 58640000000000, 55845800000000, 53051600000000, 50257400000000, 47463200000000,
    44669000000000, 42558400000000, 40447800000000, 38337200000000, 36226600000000, 34116000000000,
    32580200000000, 31044400000000, 29508600000000, 27972800000000, 26437000000000, 25268400000000,
    24099800000000, 22931200000000, 21762600000000, 20594000000000, 19564200000000, 18534400000000,
    17504600000000, 16474800000000, 15445000000000, 14539600000000, 13634200000000, 12728800000000,
    11823400000000, 10918000000000, 10266100000000, 9614200000000, 8962300000000, 8310400000000,
    7658500000000, 7251340000000, 6844180000000, 6437020000000, 6029860000000, 5622700000000, 5325480000000,
    5028260000000, 4731040000000, 4433820000000, 4136600000000, 3896340000000, 3656080000000, 3415820000000,
    3175560000000, 2935300000000, 2749080000000, 2562860000000, 2376640000000, 2190420000000, 2004200000000,
    1869600000000, 1735000000000, 1600400000000, 1465800000000, 1331200000000, 1240606000000, 1150012000000,
    1059418000000, 968824000000, 878230000000, 819730000000, 761230000000, 702730000000, 644230000000,
    585730000000, 549570000000, 513410000000, 477250000000, 441090000000, 404930000000, 382378000000,
    359826000000, 337274000000, 314722000000, 292170000000, 279278000000, 266386000000, 253494000000,
    240602000000, 227710000000, 221580000000, 215450000000, 209320000000, 203190000000, 197060000000,
    193780000000, 190500000000, 187220000000, 183940000000, 180660000000, 175426000000, 170192000000,
    164958000000, 159724000000, 154490000000, 148288000000, 142086000000, 135884000000, 129682000000,
    123480000000, 121138000000, 118796000000, 116454000000, 114112000000, 111770000000, 107528800000,
    103287600000, 99046400000, 94805200000, 90564000000, 86344600000, 82125200000, 77905800000, 73686400000,
    69467000000, 64150600000, 58834200000, 53517800000, 48201400000, 42885000000, 40671400000, 38457800000,
    36244200000, 34030600000, 31817000000, 30573200000, 29329400000, 28085600000, 26841800000, 25598000000,
    23614200000, 21630400000, 19646600000, 17662800000, 15679000000, 14497100000, 13315200000, 12133200000,
    10951300000, 9769400000, 9194400000, 8619400000, 8044400000, 7469400000, 6894400000, 6538820000,
    6183240000, 5827660000, 5472080000, 5116500000, 4813520000, 4510540000, 4207560000, 3904580000,
    3601600000, 3366040000, 3130480000, 2894920000, 2659360000, 2423800000, 2277340000, 2130880000,
    1984420000, 1837960000, 1691500000, 1591320000, 1491140000, 1390960000, 1290780000, 1190600000,
    1115460000, 1040320000, 965174000, 890032000, 814890000, 763924000, 712958000, 661992000, 611026000,
    560060000, 527136000, 494212000, 461288000, 428364000, 395440000, 372176000, 348912000, 325648000,
    302384000, 279120000, 261648000, 244176000, 226704000, 209232000, 191760000, 179678000, 167596000,
    155514000, 143432000, 131350000, 123384000, 115418000, 107451000, 99485200, 91519000, 86168600,
    80818200, 75467800, 70117400, 64767000, 61084000, 57401000, 53718000, 50035000, 46352000, 43742400,
    41132800, 38523200, 35913600, 33304000, 31407800, 29511600, 27615400, 25719200, 23823000, 22463600,
    21104200, 19744800, 18385400, 17026000, 16062200, 15098400, 14134600, 13170800, 12207000, 11507700,
    10808500, 10109200, 9409960, 8710700, 8197660, 7684620, 7171580, 6658540, 6145500, 5779640, 5413780,
    5047920, 4682060, 4316200, 4060540, 3804880, 3549220, 3293560, 3037900, 2861400, 2684900, 2508400,
    2331900, 2155400, 2034180, 1912960, 1791740, 1670520, 1549300, 1463520, 1377740, 1291960, 1206180,
    1120400, 1058070, 995732, 933398, 871064, 808730, 763664, 718598, 673532, 628466, 583400, 550940,
    518480, 486020, 453560, 421100, 397646, 374192, 350738, 327284]
  len := by decide +kernel

/-- `CIE_D65` (hpp:2070-2111). -/
def CIE_D65 : Table where
  scale := 5
  m := [
    4997550, 5044276, 5091002, 5137728, 5184454, 5231180, 5277908, 5324636, 5371364, 5418092, 5464820,
    5745886, 6026952, 6308018, 6589084, 6870150, 7151218, 7432286, 7713354, 7994422, 8275490, 8362800,
    8450110, 8537420, 8624730, 8712040, 8799352, 8886664, 8973976, 9061288, 9148600, 9168058, 9187516,
    9206974, 9226432, 9245890, 9265348, 9284806, 9304264, 9323722, 9343180, 9275684, 9208188, 9140692,
    9073196, 9005700, 8938206, 8870712, 8803218, 8735724, 8668230, 8850056, 9031882, 9213708, 9395534,
    9577360, 9759188, 9941016, 10122844, 10304672, 10486500, 10607920, 10729340, 10850760, 10972180,
    11093600, 11215040, 11336480, 11457920, 11579360, 11700800, 11708840, 11716880, 11724920, 11732960,
    11741000, 11749040, 11757080, 11765120, 11773160, 11781200, 11751680, 11722160, 11692640, 11663120,
    11633600, 11604100, 11574600, 11545100, 11515600, 11486100, 11496720, 11507340, 11517960, 11528580,
    11539200, 11549820, 11560440, 11571060, 11581680, 11592300, 11521180, 11450060, 11378940, 11307820,
    11236700, 11165580, 11094460, 11023340, 10952220, 10881100, 10886520, 10891940, 10897360, 10902780,
    10908200, 10913640, 10919080, 10924520, 10929960, 10935400, 10919880, 10904360, 10888840, 10873320,
    10857800, 10842280, 10826760, 10811240, 10795720, 10780200, 10750080, 10719960, 10689840, 10659720,
    10629600, 10599480, 10569360, 10539240, 10509120, 10479000, 10507980, 10536960, 10565940, 10594920,
    10623900, 10652900, 10681900, 10710900, 10739900, 10768900, 10736060, 10703220, 10670380, 10637540,
    10604700, 10571860, 10539020, 10506180, 10473340, 10440500, 10436900, 10433300, 10429700, 10426100,
    10422500, 10418920, 10415340, 10411760, 10408180, 10404600, 10364140, 10323680, 10283220, 10242760,
    10202300, 10161840, 10121380, 10080920, 10040460, 10000000, 9963342, 9926684, 9890026, 9853368, 9816710,
    9780052, 9743394, 9706736, 9670078, 9633420, 9627958, 9622496, 9617034, 9611572, 9606110, 9600648,
    9595186, 9589724, 9584262, 9578800, 9507776, 9436752, 9365728, 9294704, 9223680, 9152656, 9081632,
    9010608, 8939584, 8868560, 8881766, 8894972, 8908178, 8921384, 8934590, 8947796, 8961002, 8974208,
    8987414, 9000620, 8996548, 8992476, 8988404, 8984332, 8980260, 8976190, 8972120, 8968050, 8963980,
    8959910, 8940906, 8921902, 8902898, 8883894, 8864890, 8845886, 8826882, 8807878, 8788874, 8769870,
    8725768, 8681666, 8637564, 8593462, 8549360, 8505260, 8461160, 8417060, 8372960, 8328860, 8332966,
    8337072, 8341178, 8345284, 8349390, 8353496, 8357602, 8361708, 8365814, 8369920, 8333196, 8296472,
    8259748, 8223024, 8186300, 8149576, 8112852, 8076128, 8039404, 8002680, 8004558, 8006436, 8008314,
    8010192, 8012070, 8013948, 8015826, 8017704, 8019582, 8021460, 8042092, 8062724, 8083356, 8103988,
    8124620, 8145252, 8165884, 8186516, 8207148, 8227780, 8187844, 8147908, 8107972, 8068036, 8028100,
    7988164, 7948228, 7908292, 7868356, 7828420, 7742790, 7657160, 7571530, 7485900, 7400270, 7314642,
    7229014, 7143386, 7057758, 6972130, 6991008, 7009886, 7028764, 7047642, 7066520, 7085398, 7104276,
    7123154, 7142032, 7160910, 7188308, 7215706, 7243104, 7270502, 7297900, 7325300, 7352700, 7380100,
    7407500, 7434900, 7307450, 7180000, 7052550, 6925100, 6797650, 6670200, 6542750, 6415300, 6287850,
    6160400, 6243216, 6326032, 6408848, 6491664, 6574480, 6657296, 6740112, 6822928, 6905744, 6988560,
    7040574, 7092588, 7144602, 7196616, 7248630, 7300644, 7352658, 7404672, 7456686, 7508700, 7393756,
    7278812, 7163868, 7048924, 6933980, 6819038, 6704096, 6589154, 6474212, 6359270, 6187524, 6015778,
    5844032, 5672286, 5500540, 5328796, 5157052, 4985308, 4813564, 4641820, 4845692, 5049564, 5253436,
    5457308, 5661180, 5865052, 6068924, 6272796, 6476668, 6680540, 6646314, 6612088, 6577862, 6543636,
    6509410, 6475184, 6440958, 6406732, 6372506]
  len := by decide +kernel

end CS.Data.CIE
