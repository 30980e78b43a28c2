import Verif.Data.Table

/-! IES TM-30-15 colour evaluation samples.  Generated by `tools/gen_data.py`. -/

namespace CS.Data.TM30

/-- `CES51` (hpp:4174-4214). -/
def CES51 : Table where
  scale := 6
  m := [
    99501, 100400, 101300, 102210, 103130, 104060, 104990, 105930, 106880, 107840, 108800, 109770, 110750,
    111740, 112730, 113730, 114740, 115760, 116780, 117810, 118890, 119920, 120960, 122010, 123080, 124160,
    125250, 126350, 127460, 128580, 129710, 130840, 131980, 133130, 134280, 135430, 136580, 137740, 138900,
    140060, 141220, 142380, 143530, 144690, 145860, 147030, 148200, 149390, 150590, 151800, 153030, 154270,
    155530, 156800, 158080, 159370, 160660, 161960, 163250, 164540, 165830, 167110, 168390, 169670, 170960,
    172260, 173580, 174920, 176290, 177690, 179130, 180610, 182120, 183660, 185220, 186800, 188390, 189980,
    191570, 193150, 194710, 196250, 197780, 199320, 200870, 202440, 204060, 205730, 207460, 209280, 211180,
    213190, 215340, 217640, 220130, 222830, 225780, 229000, 232520, 236360, 240560, 245130, 250040, 255250,
    260720, 266400, 272260, 278260, 284340, 290480, 296630, 302740, 308780, 314690, 320440, 325970, 331240,
    336210, 340830, 345050, 348830, 352140, 354990, 357430, 359490, 361190, 362590, 363700, 364570, 365220,
    365700, 366030, 366210, 366250, 366130, 365860, 365420, 364830, 364060, 363130, 362030, 360750, 359300,
    357690, 355920, 354010, 351950, 349770, 347450, 345020, 342480, 339830, 337060, 334180, 331160, 328000,
    324700, 321240, 317610, 313810, 309830, 305660, 301310, 296810, 292180, 287420, 282570, 277630, 272620,
    267570, 262490, 257400, 252330, 247320, 242390, 237570, 232910, 228420, 224140, 220100, 216340, 212880,
    209700, 206790, 204120, 201670, 199430, 197380, 195490, 193750, 192130, 190620, 189220, 187940, 186780,
    185750, 184860, 184120, 183520, 183080, 182800, 182690, 182730, 182930, 183270, 183730, 184320, 185010,
    185810, 186700, 187660, 188700, 189780, 190880, 191970, 193040, 194040, 194970, 195780, 196470, 196990,
    197340, 197520, 197550, 197460, 197250, 196950, 196580, 196150, 195690, 195210, 194720, 194250, 193800,
    193390, 193020, 192720, 192480, 192330, 192280, 192330, 192490, 192770, 193150, 193620, 194180, 194810,
    195500, 196250, 197050, 197880, 198750, 199650, 200600, 201590, 202640, 203750, 204920, 206160, 207490,
    208900, 210400, 211980, 213630, 215330, 217090, 218880, 220690, 222520, 224350, 226170, 227970, 229730,
    231450, 233090, 234650, 236120, 237470, 238680, 239750, 240660, 241390, 241960, 242370, 242650, 242810,
    242860, 242810, 242680, 242490, 242240, 241960, 241630, 241270, 240870, 240440, 239980, 239470, 238940,
    238380, 237780, 237150, 236490, 235800, 235080, 234320, 233520, 232680, 231810, 230890, 229940, 228940,
    227900, 226810, 225680, 224500, 223270, 221990, 220650, 219270, 217830, 217520, 216430, 215350, 214270,
    213200, 212130, 211070, 210000, 208950, 207890, 206840, 205800, 204750, 203720, 202680, 201650, 200630,
    199600, 198580, 197570, 196560, 195550, 194550, 193550, 192560, 191560, 190580, 189590, 188610, 187640,
    186670, 185700, 184740, 183780, 182820, 181870, 180920, 179970, 179030, 178100, 177160, 176230, 175310,
    174390, 173470, 172550, 171640, 170740, 169840, 168940, 168040, 167150, 166260, 165380, 164500, 163620,
    162750, 161880, 161020, 160160, 159300, 158450, 157600, 156750, 155910, 155070, 154230, 153400, 152580,
    151750, 150930, 150110, 149300, 148490, 147690, 146880, 146080, 145290, 144500]
  len := by decide +kernel

/-- `CES52` (hpp:4215-4255). -/
def CES52 : Table where
  scale := 6
  m := [
    58595, 58559, 58524, 58488, 58453, 58417, 58382, 58346, 58311, 58275, 58240, 58205, 58169, 58134, 58098,
    58063, 58028, 57993, 57957, 57922, 58015, 57923, 57840, 57767, 57703, 57649, 57603, 57565, 57536, 57514,
    57500, 57493, 57493, 57500, 57513, 57532, 57556, 57587, 57622, 57662, 57706, 57755, 57809, 57869, 57936,
    58010, 58094, 58186, 58289, 58404, 58531, 58670, 58823, 58991, 59172, 59369, 59581, 59809, 60053, 60313,
    60592, 60888, 61203, 61541, 61904, 62293, 62710, 63159, 63641, 64158, 64713, 65306, 65927, 66563, 67205,
    67839, 68453, 69037, 69578, 70064, 70484, 70830, 71114, 71351, 71559, 71751, 71946, 72158, 72404, 72699,
    73060, 73506, 74068, 74780, 75677, 76793, 78163, 79821, 81802, 84139, 86868, 90011, 93537, 97405,
    101570, 106000, 110650, 115470, 120420, 125470, 130560, 135670, 140760, 145810, 150800, 155710, 160510,
    165180, 169690, 174030, 178170, 182090, 185790, 189300, 192610, 195750, 198710, 201510, 204170, 206690,
    209080, 211350, 213470, 215390, 217090, 218530, 219670, 220480, 220910, 220940, 220520, 219630, 218300,
    216570, 214470, 212040, 209320, 206350, 203160, 199800, 196300, 192710, 189030, 185290, 181510, 177700,
    173900, 170100, 166340, 162640, 159000, 155450, 151990, 148590, 145270, 142000, 138780, 135600, 132460,
    129340, 126230, 123140, 120070, 117040, 114070, 111150, 108320, 105590, 102960, 100460, 98101, 95888,
    93821, 91891, 90089, 88407, 86837, 85371, 84000, 82716, 81510, 80376, 79310, 78309, 77372, 76497, 75680,
    74920, 74214, 73561, 72957, 72401, 71892, 71428, 71008, 70631, 70295, 70001, 69746, 69530, 69350, 69207,
    69095, 69011, 68950, 68909, 68882, 68865, 68855, 68846, 68835, 68819, 68797, 68772, 68745, 68717, 68691,
    68667, 68648, 68635, 68629, 68632, 68643, 68662, 68687, 68719, 68755, 68796, 68841, 68889, 68938, 68990,
    69043, 69100, 69160, 69226, 69297, 69376, 69461, 69556, 69660, 69774, 69903, 70048, 70214, 70403, 70620,
    70867, 71147, 71465, 71824, 72224, 72665, 73140, 73646, 74178, 74732, 75303, 75888, 76481, 77079, 77677,
    78269, 78852, 79419, 79967, 80490, 80983, 81440, 81858, 82231, 82556, 82834, 83068, 83263, 83421, 83546,
    83640, 83708, 83753, 83777, 83784, 83774, 83747, 83702, 83640, 83560, 83461, 83345, 83210, 83056, 82883,
    82691, 82480, 82251, 82002, 81735, 81449, 81145, 80821, 80480, 80119, 79740, 79343, 78927, 78493, 78041,
    77570, 77081, 76574, 76049, 75958, 75567, 75178, 74791, 74405, 74022, 73640, 73260, 72882, 72505, 72131,
    71758, 71387, 71018, 70650, 70285, 69921, 69558, 69198, 68839, 68482, 68127, 67773, 67421, 67071, 66722,
    66376, 66030, 65687, 65345, 65005, 64666, 64330, 63994, 63661, 63329, 62998, 62670, 62342, 62017, 61693,
    61370, 61049, 60730, 60413, 60096, 59782, 59469, 59157, 58847, 58539, 58232, 57926, 57622, 57320, 57019,
    56720, 56422, 56125, 55830, 55536, 55244, 54954, 54664, 54377, 54090, 53805, 53522, 53240, 52959, 52679,
    52402, 52125, 51850, 51576, 51304, 51032, 50763, 50494]
  len := by decide +kernel

/-- `CES53` (hpp:4256-4296). -/
def CES53 : Table where
  scale := 6
  m := [
    72779, 73026, 73273, 73521, 73770, 74019, 74270, 74521, 74773, 75025, 75279, 75533, 75788, 76044, 76300,
    76558, 76816, 77075, 77335, 77595, 77900, 78095, 78340, 78628, 78951, 79302, 79672, 80055, 80442, 80826,
    81200, 81558, 81903, 82239, 82573, 82909, 83252, 83608, 83981, 84377, 84800, 85255, 85740, 86255, 86796,
    87362, 87951, 88562, 89191, 89838, 90500, 91176, 91866, 92572, 93293, 94031, 94786, 95560, 96353, 97166,
    98000, 98857, 99741, 100660, 101620, 102630, 103690, 104810, 106000, 107260, 108600, 110030, 111540,
    113130, 114820, 116580, 118440, 120370, 122400, 124510, 126700, 128980, 131350, 133800, 136350, 139000,
    141750, 144600, 147560, 150620, 153800, 157090, 160500, 164040, 167710, 171520, 175470, 179570, 183820,
    188230, 192800, 197540, 202460, 207540, 212800, 218220, 223820, 229580, 235520, 241620, 247900, 254340,
    260910, 267580, 274300, 281050, 287770, 294430, 301000, 307440, 313700, 319750, 325560, 331080, 336280,
    341110, 345540, 349530, 353050, 356050, 358500, 360370, 361670, 362440, 362710, 362510, 361860, 360790,
    359340, 357530, 355400, 352970, 350250, 347270, 344040, 340580, 336890, 333010, 328940, 324700, 320300,
    315760, 311100, 306320, 301440, 296460, 291400, 286280, 281090, 275860, 270600, 265310, 260010, 254710,
    249410, 244120, 238850, 233620, 228430, 223280, 218200, 213180, 208240, 203370, 198580, 193870, 189250,
    184710, 180280, 175940, 171700, 167570, 163540, 159600, 155770, 152040, 148390, 144840, 141370, 138000,
    134700, 131490, 128350, 125290, 122310, 119400, 116570, 113800, 111100, 108470, 105900, 103390, 100950,
    98578, 96269, 94028, 91858, 89758, 87731, 85778, 83900, 82099, 80376, 78729, 77161, 75671, 74259, 72926,
    71671, 70496, 69400, 68383, 67442, 66574, 65774, 65038, 64364, 63746, 63182, 62668, 62200, 61774, 61388,
    61038, 60723, 60439, 60184, 59955, 59750, 59566, 59400, 59250, 59114, 58992, 58881, 58781, 58691, 58609,
    58534, 58465, 58400, 58339, 58281, 58226, 58173, 58123, 58075, 58029, 57985, 57942, 57900, 57860, 57822,
    57791, 57766, 57752, 57749, 57760, 57787, 57833, 57900, 57989, 58099, 58230, 58379, 58546, 58729, 58928,
    59140, 59364, 59600, 59846, 60101, 60367, 60642, 60927, 61222, 61527, 61841, 62166, 62500, 62844, 63195,
    63554, 63917, 64283, 64650, 65017, 65382, 65744, 66100, 66450, 66793, 67133, 67470, 67804, 68139, 68474,
    68812, 69154, 69500, 69852, 70204, 70552, 70890, 71212, 71514, 71789, 72032, 72237, 72400, 72663, 72887,
    73112, 73338, 73564, 73791, 74018, 74246, 74475, 74705, 74935, 75165, 75397, 75629, 75862, 76095, 76329,
    76564, 76799, 77035, 77272, 77509, 77747, 77986, 78225, 78465, 78706, 78947, 79189, 79432, 79675, 79919,
    80164, 80409, 80656, 80902, 81150, 81398, 81647, 81897, 82147, 82398, 82649, 82902, 83155, 83409, 83663,
    83918, 84174, 84431, 84688, 84946, 85205, 85464, 85724, 85985, 86247, 86509, 86772, 87036, 87300, 87566,
    87832, 88098, 88366, 88634, 88903, 89172, 89443, 89714, 89986, 90258, 90531, 90805, 91080, 91356, 91632,
    91909, 92187]
  len := by decide +kernel

/-- `CES54` (hpp:4297-4337). -/
def CES54 : Table where
  scale := 6
  m := [
    408570, 411660, 414750, 417860, 420960, 424080, 427200, 430320, 433450, 436590, 439730, 442880, 446030,
    449180, 452340, 455510, 458670, 461840, 465020, 468190, 471900, 474260, 477220, 480700, 484600, 488830,
    493290, 497890, 502540, 507140, 511600, 515850, 519890, 523770, 527510, 531140, 534690, 538200, 541700,
    545230, 548800, 552450, 556170, 559930, 563730, 567540, 571350, 575130, 578880, 582580, 586200, 589740,
    593200, 596610, 599980, 603330, 606680, 610040, 613440, 616890, 620400, 623990, 627670, 631410, 635210,
    639070, 642970, 646910, 650890, 654890, 658900, 662920, 666940, 670960, 674950, 678910, 682840, 686720,
    690550, 694310, 698000, 701610, 705140, 708580, 711950, 715230, 718440, 721570, 724620, 727600, 730500,
    733320, 736070, 738730, 741310, 743790, 746180, 748470, 750660, 752730, 754700, 756550, 758290, 759920,
    761440, 762850, 764160, 765360, 766470, 767480, 768400, 769220, 769960, 770610, 771180, 771660, 772070,
    772410, 772670, 772870, 773000, 773070, 773090, 773060, 772990, 772890, 772770, 772630, 772480, 772340,
    772200, 772080, 771960, 771850, 771750, 771640, 771520, 771400, 771250, 771090, 770900, 770680, 770430,
    770150, 769840, 769500, 769130, 768720, 768280, 767810, 767300, 766760, 766180, 765560, 764910, 764210,
    763460, 762670, 761830, 760940, 760000, 759000, 757950, 756830, 755640, 754370, 753030, 751610, 750100,
    748500, 746800, 745000, 743110, 741120, 739060, 736910, 734690, 732410, 730060, 727650, 725200, 722700,
    720160, 717570, 714930, 712260, 709530, 706770, 703960, 701100, 698200, 695250, 692250, 689180, 686030,
    682800, 679460, 676020, 672450, 668750, 664900, 660900, 656750, 652440, 647970, 643360, 638590, 633670,
    628600, 623370, 618000, 612480, 606850, 601130, 595370, 589590, 583830, 578130, 572520, 567030, 561700,
    556560, 551610, 546870, 542330, 538020, 533920, 530060, 526430, 523040, 519900, 517010, 514360, 511950,
    509770, 507800, 506040, 504480, 503110, 501920, 500900, 500040, 499330, 498760, 498310, 497980, 497750,
    497610, 497540, 497550, 497600, 497700, 497830, 497990, 498180, 498390, 498610, 498830, 499060, 499290,
    499500, 499700, 499900, 500120, 500360, 500650, 500990, 501400, 501890, 502490, 503200, 504040, 505000,
    506110, 507350, 508740, 510280, 511970, 513820, 515830, 518000, 520340, 522830, 525460, 528200, 531040,
    533960, 536950, 539980, 543030, 546100, 549160, 552210, 555240, 558240, 561220, 564160, 567070, 569930,
    572740, 575500, 578200, 580850, 583470, 586050, 588620, 591170, 593730, 596300, 598880, 601500, 604150,
    606800, 609410, 611940, 614350, 616600, 618650, 620460, 621990, 623200, 625130, 626770, 628420, 630050,
    631690, 633320, 634950, 636570, 638200, 639820, 641430, 643050, 644660, 646260, 647870, 649470, 651060,
    652660, 654250, 655830, 657410, 658990, 660570, 662140, 663710, 665280, 666840, 668400, 669950, 671500,
    673050, 674590, 676130, 677660, 679200, 680720, 682250, 683770, 685280, 686800, 688300, 689810, 691310,
    692800, 694300, 695780, 697270, 698750, 700220, 701700, 703160, 704630, 706090, 707540, 708990, 710440,
    711880, 713320, 714750, 716180, 717600, 719020, 720440, 721850, 723260, 724660, 726060, 727460, 728850,
    730230, 731610, 732990, 734360, 735730, 737090, 738450, 739800, 741150, 742490]
  len := by decide +kernel

/-- `CES55` (hpp:4338-4378). -/
def CES55 : Table where
  scale := 6
  m := [
    300730, 306210, 311520, 316680, 321710, 326610, 331420, 336140, 340780, 345370, 349920, 354440, 358940,
    363420, 367870, 372300, 376710, 381100, 385480, 389830, 394160, 398470, 402770, 407050, 411300, 415530,
    419740, 423930, 428080, 432220, 436320, 440400, 444450, 448480, 452510, 456520, 460530, 464550, 468580,
    472620, 476680, 480770, 484870, 488990, 493120, 497250, 501380, 505500, 509600, 513690, 517750, 521780,
    525790, 529780, 533760, 537740, 541730, 545730, 549750, 553800, 557890, 562020, 566190, 570410, 574670,
    578980, 583340, 587740, 592200, 596700, 601250, 605850, 610490, 615170, 619860, 624580, 629290, 634010,
    638710, 643390, 648040, 652650, 657210, 661710, 666140, 670490, 674750, 678910, 682950, 686870, 690660,
    694310, 697810, 701180, 704420, 707540, 710520, 713390, 716150, 718790, 721320, 723750, 726080, 728300,
    730430, 732460, 734380, 736220, 737960, 739600, 741150, 742610, 743980, 745250, 746430, 747520, 748510,
    749400, 750200, 750900, 751510, 752020, 752430, 752750, 752980, 753120, 753180, 753150, 753040, 752850,
    752590, 752250, 751840, 751350, 750770, 750100, 749350, 748500, 747560, 746520, 745370, 744120, 742760,
    741300, 739750, 738100, 736360, 734530, 732610, 730610, 728530, 726370, 724130, 721810, 719390, 716890,
    714280, 711580, 708780, 705860, 702840, 699700, 696450, 693100, 689640, 686080, 682430, 678680, 674850,
    670940, 666940, 662870, 658740, 654550, 650330, 646070, 641800, 637530, 633260, 629020, 624800, 620630,
    616500, 612420, 608400, 604440, 600530, 596700, 592930, 589240, 585620, 582080, 578620, 575210, 571860,
    568560, 565300, 562060, 558840, 555630, 552420, 549200, 545970, 542720, 539440, 536110, 532750, 529320,
    525840, 522280, 518650, 514940, 511170, 507360, 503550, 499750, 496000, 492320, 488740, 485280, 481960,
    478810, 475840, 473030, 470390, 467910, 465590, 463430, 461430, 459580, 457880, 456330, 454920, 453640,
    452490, 451460, 450550, 449750, 449050, 448440, 447920, 447480, 447120, 446830, 446610, 446440, 446330,
    446270, 446250, 446260, 446310, 446380, 446490, 446620, 446780, 446990, 447230, 447510, 447830, 448200,
    448620, 449090, 449620, 450210, 450870, 451600, 452410, 453300, 454290, 455370, 456560, 457850, 459240,
    460730, 462300, 463960, 465680, 467480, 469330, 471240, 473190, 475180, 477210, 479260, 481330, 483410,
    485500, 487580, 489660, 491720, 493760, 495770, 497750, 499700, 501610, 503470, 505300, 507080, 508810,
    510490, 512120, 513690, 515200, 516640, 518010, 519310, 520530, 521660, 522700, 523650, 524500, 525250,
    525900, 526460, 526940, 527350, 527690, 527970, 528200, 528390, 528540, 528660, 528760, 528840, 528920,
    528990, 529060, 529150, 529250, 529380, 529540, 529740, 529980, 530280, 530650, 531090, 531620, 532250,
    532970, 533820, 534780, 535880, 537100, 538470, 539960, 541580, 543340, 545230, 547250, 549400, 551680,
    554100, 556660, 559400, 562330, 565480, 568860, 572490, 576400, 580610, 585140, 589980, 595050, 600230,
    605400, 610450, 615270, 619740, 623740, 627170, 629910, 631880, 633140, 633790, 633940, 633690, 633140,
    632380, 631520, 630670, 629910, 629340, 628940, 628710, 628620, 628650, 628780, 628990, 629260, 629580,
    629910, 630240, 630560, 630830, 631040, 631170, 631200, 631110, 630880, 630480]
  len := by decide +kernel

/-- `CES56` (hpp:4379-4419). -/
def CES56 : Table where
  scale := 6
  m := [
    155210, 158450, 161750, 165110, 168520, 171990, 175510, 179090, 182730, 186430, 190180, 193990, 197850,
    201780, 205760, 209800, 213900, 218060, 222270, 226550, 231500, 234890, 239110, 243980, 249350, 255030,
    260840, 266620, 272190, 277380, 282010, 285950, 289250, 291990, 294260, 296160, 297760, 299150, 300420,
    301670, 302970, 304400, 305960, 307640, 309420, 311300, 313250, 315270, 317340, 319450, 321580, 323730,
    325890, 328080, 330290, 332530, 334810, 337130, 339490, 341900, 344370, 346900, 349510, 352230, 355080,
    358080, 361250, 364610, 368200, 372030, 376120, 380490, 385120, 389990, 395070, 400320, 405730, 411260,
    416900, 422610, 428360, 434140, 439980, 445910, 451950, 458150, 464530, 471140, 478000, 485150, 492620,
    500430, 508530, 516870, 525380, 533990, 542660, 551310, 559890, 568330, 576580, 584580, 592300, 599740,
    606870, 613680, 620160, 626290, 632060, 637450, 642440, 647030, 651210, 654990, 658380, 661370, 663980,
    666200, 668050, 669530, 670630, 671370, 671770, 671840, 671590, 671060, 670240, 669180, 667870, 666340,
    664610, 662690, 660600, 658330, 655900, 653320, 650590, 647720, 644720, 641600, 638360, 635010, 631550,
    627980, 624300, 620520, 616620, 612610, 608500, 604270, 599940, 595500, 590940, 586280, 581510, 576640,
    571660, 566580, 561390, 556100, 550710, 545220, 539640, 533970, 528230, 522410, 516540, 510610, 504640,
    498630, 492590, 486530, 480450, 474360, 468270, 462180, 456090, 450020, 443960, 437920, 431910, 425930,
    419980, 414070, 408170, 402310, 396460, 390640, 384840, 379050, 373280, 367520, 361780, 356050, 350340,
    344650, 338980, 333330, 327700, 322090, 316510, 310950, 305420, 299930, 294470, 289040, 283660, 278330,
    273040, 267810, 262630, 257510, 252460, 247500, 242630, 237870, 233220, 228710, 224340, 220130, 216090,
    212230, 208540, 205030, 201710, 198560, 195590, 192790, 190180, 187740, 185470, 183380, 181450, 179670,
    178040, 176530, 175140, 173860, 172670, 171570, 170540, 169570, 168660, 167800, 166990, 166210, 165480,
    164780, 164100, 163450, 162810, 162190, 161580, 160980, 160390, 159810, 159240, 158680, 158130, 157580,
    157040, 156510, 155990, 155480, 155000, 154550, 154140, 153760, 153440, 153160, 152950, 152800, 152720,
    152700, 152750, 152860, 153040, 153290, 153600, 153980, 154430, 154950, 155530, 156190, 156920, 157720,
    158610, 159570, 160610, 161740, 162950, 164250, 165610, 167030, 168480, 169940, 171410, 172850, 174250,
    175600, 176870, 178050, 179160, 180210, 181200, 182160, 183110, 184050, 185000, 185970, 186990, 188060,
    189160, 190270, 191360, 192430, 193440, 194370, 195200, 195910, 196470, 197370, 198130, 198910, 199680,
    200450, 201230, 202010, 202790, 203570, 204360, 205150, 205940, 206730, 207530, 208330, 209120, 209930,
    210730, 211540, 212350, 213160, 213970, 214790, 215600, 216420, 217250, 218070, 218900, 219730, 220560,
    221390, 222230, 223060, 223900, 224750, 225590, 226440, 227290, 228140, 228990, 229850, 230710, 231570,
    232430, 233300, 234160, 235030, 235900, 236780, 237650, 238530, 239410, 240290, 241180, 242070, 242960,
    243850, 244740, 245640, 246540, 247440, 248340, 249240, 250150, 251060, 251970, 252890, 253800, 254720,
    255640, 256560, 257490, 258410, 259340, 260270, 261210, 262140, 263080, 264020]
  len := by decide +kernel

/-- `CES57` (hpp:4420-4460). -/
def CES57 : Table where
  scale := 6
  m := [
    134700, 134750, 134820, 134880, 134930, 134970, 134990, 134980, 134930, 134840, 134700, 134510, 134280,
    134050, 133850, 133700, 133630, 133670, 133840, 134170, 134700, 135430, 136350, 137410, 138590, 139840,
    141130, 142430, 143700, 144900, 146000, 146970, 147840, 148610, 149320, 149990, 150650, 151310, 152010,
    152760, 153600, 154540, 155580, 156730, 157990, 159340, 160810, 162370, 164050, 165820, 167700, 169680,
    171760, 173940, 176210, 178570, 181020, 183550, 186160, 188840, 191600, 194430, 197330, 200320, 203380,
    206540, 209790, 213130, 216580, 220130, 223800, 227580, 231490, 235510, 239660, 243940, 248360, 252910,
    257590, 262420, 267400, 272520, 277780, 283170, 288660, 294270, 299960, 305730, 311570, 317460, 323400,
    329370, 335360, 341370, 347370, 353360, 359320, 365250, 371130, 376950, 382700, 388370, 393930, 399380,
    404680, 409830, 414800, 419570, 424120, 428440, 432500, 436290, 439800, 443040, 446010, 448700, 451110,
    453250, 455110, 456690, 458000, 459030, 459800, 460300, 460550, 460550, 460310, 459840, 459140, 458230,
    457100, 455770, 454250, 452540, 450660, 448610, 446400, 444050, 441560, 438940, 436200, 433350, 430390,
    427330, 424150, 420880, 417500, 414020, 410450, 406770, 403000, 399130, 395170, 391100, 386920, 382640,
    378240, 373720, 369070, 364300, 359400, 354370, 349210, 343940, 338580, 333130, 327610, 322040, 316420,
    310770, 305100, 299420, 293760, 288110, 282500, 276940, 271430, 266000, 260660, 255420, 250300, 245300,
    240430, 235670, 231040, 226510, 222100, 217800, 213600, 209500, 205500, 201590, 197770, 194030, 190350,
    186740, 183190, 179690, 176230, 172800, 169400, 166020, 162640, 159270, 155880, 152470, 149030, 145540,
    141990, 138380, 134700, 130940, 127120, 123290, 119480, 115720, 112060, 108520, 105140, 101950, 99000,
    96307, 93865, 91661, 89678, 87903, 86319, 84911, 83666, 82567, 81600, 80750, 80004, 79350, 78775, 78267,
    77814, 77403, 77022, 76659, 76300, 75937, 75569, 75202, 74837, 74478, 74129, 73794, 73475, 73176, 72900,
    72649, 72416, 72192, 71967, 71733, 71480, 71199, 70882, 70518, 70100, 69618, 69065, 68435, 67721, 66916,
    66014, 65008, 63892, 62658, 61300, 59817, 58226, 56551, 54814, 53040, 51250, 49468, 47717, 46020, 44400,
    42877, 41455, 40136, 38922, 37813, 36811, 35917, 35133, 34461, 33900, 33452, 33109, 32864, 32708, 32634,
    32633, 32697, 32818, 32989, 33200, 33455, 33799, 34288, 34979, 35927, 37189, 38821, 40880, 43421, 46500,
    50142, 54238, 58649, 63236, 67858, 72375, 76648, 80536, 83900, 86600, 88536, 89770, 90404, 90539, 90279,
    89724, 88977, 88139, 87313, 86600, 86081, 85751, 85581, 85544, 85614, 85763, 85963, 86188, 86409, 86600,
    86739, 86828, 86873, 86883, 86864, 86824, 86771, 86710, 86651, 86600, 86563, 86539, 86527, 86524, 86529,
    86540, 86554, 86570, 86586, 86600, 86610, 86616, 86620, 86620, 86619, 86616, 86612, 86608, 86604, 86600,
    86597, 86596, 86595, 86594, 86595, 86596, 86597, 86598, 86599, 86600, 86601, 86601, 86602, 86602, 86602,
    86602, 86601, 86601, 86600, 86600, 86600, 86599, 86599, 86598, 86598, 86598, 86598, 86599, 86599]
  len := by decide +kernel

/-- `CES58` (hpp:4461-4501). -/
def CES58 : Table where
  scale := 6
  m := [
    106060, 106870, 107700, 108560, 109440, 110350, 111280, 112220, 113180, 114150, 115140, 116140, 117150,
    118160, 119180, 120200, 121230, 122250, 123280, 124300, 125310, 126320, 127320, 128320, 129320, 130330,
    131340, 132360, 133390, 134440, 135500, 136580, 137690, 138810, 139960, 141140, 142340, 143580, 144840,
    146140, 147470, 148840, 150240, 151670, 153140, 154640, 156170, 157740, 159330, 160940, 162590, 164260,
    165960, 167700, 169470, 171280, 173130, 175030, 176980, 178980, 181030, 183140, 185330, 187590, 189950,
    192420, 195000, 197710, 200560, 203560, 206730, 210070, 213580, 217270, 221140, 225180, 229400, 233800,
    238370, 243120, 248040, 253140, 258390, 263780, 269280, 274860, 280520, 286220, 291950, 297680, 303390,
    309060, 314680, 320250, 325740, 331160, 336500, 341740, 346880, 351900, 356810, 361590, 366210, 370670,
    374940, 379010, 382850, 386440, 389780, 392820, 395570, 398000, 400120, 401930, 403450, 404680, 405640,
    406330, 406770, 406950, 406900, 406620, 406120, 405410, 404500, 403410, 402150, 400730, 399160, 397450,
    395620, 393670, 391610, 389450, 387180, 384830, 382380, 379850, 377230, 374550, 371790, 368970, 366080,
    363140, 360130, 357070, 353950, 350770, 347540, 344270, 340940, 337570, 334140, 330670, 327150, 323570,
    319950, 316270, 312530, 308750, 304900, 301000, 297040, 293030, 288980, 284880, 280730, 276550, 272330,
    268080, 263800, 259490, 255170, 250830, 246490, 242150, 237820, 233510, 229230, 224980, 220770, 216610,
    212490, 208410, 204350, 200330, 196330, 192340, 188360, 184390, 180410, 176430, 172440, 168460, 164480,
    160510, 156550, 152610, 148680, 144780, 140910, 137070, 133260, 129490, 125770, 122090, 118480, 114910,
    111420, 107990, 104630, 101350, 98155, 95050, 92042, 89137, 86342, 83663, 81107, 78681, 76390, 74240,
    72227, 70346, 68593, 66963, 65451, 64051, 62759, 61571, 60480, 59483, 58573, 57747, 56998, 56322, 55713,
    55167, 54678, 54240, 53850, 53502, 53192, 52917, 52674, 52459, 52270, 52103, 51954, 51821, 51700, 51588,
    51485, 51390, 51303, 51224, 51153, 51089, 51032, 50983, 50940, 50904, 50878, 50865, 50868, 50889, 50933,
    51001, 51099, 51227, 51390, 51590, 51827, 52100, 52410, 52755, 53134, 53548, 53996, 54477, 54990, 55535,
    56112, 56718, 57353, 58016, 58706, 59421, 60161, 60924, 61710, 62517, 63342, 64181, 65033, 65892, 66757,
    67623, 68488, 69348, 70200, 71041, 71871, 72689, 73495, 74288, 75069, 75837, 76591, 77332, 78060, 78773,
    79468, 80143, 80792, 81412, 82001, 82554, 83067, 83537, 83960, 84334, 84657, 84932, 85159, 85337, 85469,
    85555, 85594, 85589, 85540, 85448, 85318, 85156, 84969, 84760, 84538, 84307, 84073, 83842, 83620, 83413,
    83226, 83066, 82937, 82847, 82801, 82804, 82863, 82983, 83170, 82468, 82356, 82245, 82134, 82023, 81912,
    81801, 81691, 81580, 81470, 81360, 81250, 81140, 81030, 80920, 80811, 80701, 80592, 80483, 80374, 80265,
    80156, 80048, 79939, 79831, 79723, 79615, 79507, 79399, 79291, 79184, 79076, 78969, 78862, 78755, 78648,
    78542, 78435, 78329, 78222, 78116, 78010, 77904, 77798, 77693, 77587, 77482, 77376, 77271]
  len := by decide +kernel

/-- `CES59` (hpp:4502-4542). -/
def CES59 : Table where
  scale := 6
  m := [
    184710, 194010, 203670, 213670, 224030, 234740, 245800, 257210, 268960, 281040, 293450, 306170, 319190,
    332500, 346090, 359930, 374010, 388300, 402790, 417450, 434500, 445880, 460060, 476460, 494490, 513570,
    533110, 552530, 571240, 588660, 604200, 617420, 628410, 637410, 644660, 650380, 654830, 658230, 660810,
    662830, 664500, 666030, 667460, 668790, 670030, 671170, 672230, 673190, 674080, 674880, 675600, 676250,
    676830, 677360, 677850, 678300, 678740, 679170, 679590, 680040, 680500, 681000, 681530, 682100, 682690,
    683320, 683980, 684670, 685390, 686130, 686900, 687700, 688520, 689380, 690270, 691190, 692160, 693170,
    694230, 695340, 696500, 697720, 699000, 700350, 701790, 703320, 704940, 706670, 708520, 710490, 712600,
    714840, 717230, 719740, 722370, 725130, 728000, 730970, 734050, 737230, 740500, 743850, 747290, 750790,
    754350, 757960, 761620, 765310, 769020, 772760, 776500, 780240, 783960, 787630, 791230, 794730, 798120,
    801360, 804440, 807330, 810000, 812440, 814640, 816620, 818370, 819900, 821220, 822320, 823210, 823910,
    824400, 824700, 824810, 824740, 824490, 824070, 823490, 822740, 821840, 820790, 819600, 818270, 816800,
    815200, 813470, 811600, 809600, 807470, 805210, 802820, 800300, 797660, 794890, 792010, 789020, 785910,
    782700, 779390, 775990, 772490, 768900, 765230, 761470, 757620, 753670, 749630, 745500, 741260, 736910,
    732460, 727900, 723230, 718460, 713620, 708730, 703800, 698850, 693910, 688990, 684110, 679300, 674570,
    669920, 665370, 660910, 656570, 652330, 648210, 644210, 640340, 636600, 633000, 629540, 626200, 622990,
    619900, 616930, 614070, 611310, 608660, 606100, 603630, 601250, 598940, 596700, 594510, 592370, 590270,
    588200, 586140, 584100, 582060, 580020, 577990, 575960, 573940, 571930, 569930, 567940, 565960, 564000,
    562050, 560130, 558240, 556400, 554610, 552880, 551230, 549660, 548180, 546800, 545530, 544370, 543290,
    542310, 541400, 540560, 539770, 539040, 538350, 537700, 537070, 536460, 535870, 535300, 534730, 534170,
    533610, 533050, 532480, 531900, 531310, 530720, 530150, 529590, 529080, 528610, 528210, 527880, 527640,
    527500, 527470, 527550, 527740, 528020, 528400, 528880, 529440, 530080, 530800, 531600, 532460, 533370,
    534270, 535160, 535990, 536730, 537360, 537830, 538120, 538200, 538050, 537690, 537180, 536540, 535830,
    535080, 534350, 533660, 533060, 532600, 532300, 532170, 532180, 532330, 532600, 532980, 533460, 534010,
    534630, 535300, 536010, 536710, 537370, 537940, 538390, 538660, 538720, 538530, 538030, 537200, 536010,
    534510, 532770, 530890, 528920, 526940, 525040, 523280, 521740, 520500, 518640, 517020, 515400, 513780,
    512160, 510540, 508920, 507300, 505680, 504060, 502440, 500810, 499190, 497570, 495950, 494330, 492710,
    491090, 489460, 487840, 486220, 484600, 482980, 481360, 479740, 478130, 476510, 474890, 473270, 471660,
    470040, 468420, 466810, 465190, 463580, 461970, 460360, 458750, 457140, 455530, 453920, 452310, 450700,
    449100, 447490, 445890, 444290, 442690, 441090, 439490, 437890, 436300, 434700, 433110, 431520, 429930,
    428340, 426750, 425160, 423580, 422000, 420410, 418840, 417260, 415680, 414110, 412530, 410960, 409390,
    407830, 406260, 404700, 403130, 401570, 400020, 398460, 396910, 395360, 393810]
  len := by decide +kernel

/-- `CES60` (hpp:4543-4583). -/
def CES60 : Table where
  scale := 6
  m := [
    437100, 444820, 452220, 459310, 466140, 472720, 479100, 485300, 491350, 497280, 503120, 508890, 514600,
    520240, 525810, 531290, 536690, 542000, 547220, 552340, 557350, 562260, 567060, 571750, 576340, 580830,
    585230, 589520, 593720, 597820, 601830, 605750, 609590, 613340, 617020, 620630, 624170, 627650, 631070,
    634440, 637770, 641050, 644300, 647500, 650670, 653810, 656920, 660000, 663050, 666080, 669080, 672060,
    675020, 677950, 680840, 683700, 686510, 689270, 691970, 694620, 697210, 699730, 702180, 704580, 706910,
    709180, 711390, 713550, 715660, 717720, 719730, 721700, 723620, 725490, 727330, 729120, 730880, 732590,
    734270, 735910, 737510, 739080, 740610, 742110, 743570, 745000, 746390, 747740, 749060, 750340, 751590,
    752800, 753970, 755110, 756220, 757290, 758330, 759350, 760330, 761280, 762200, 763100, 763960, 764790,
    765590, 766360, 767080, 767760, 768400, 768990, 769530, 770020, 770460, 770840, 771170, 771450, 771660,
    771820, 771920, 771960, 771930, 771840, 771690, 771470, 771180, 770820, 770400, 769900, 769330, 768680,
    767960, 767160, 766290, 765340, 764330, 763240, 762080, 760860, 759570, 758210, 756800, 755330, 753800,
    752220, 750600, 748950, 747270, 745560, 743840, 742100, 740360, 738620, 736870, 735120, 733360, 731590,
    729790, 727980, 726140, 724270, 722370, 720430, 718470, 716470, 714450, 712410, 710350, 708290, 706210,
    704140, 702060, 699990, 697930, 695890, 693870, 691890, 689950, 688050, 686200, 684410, 682680, 681020,
    679440, 677930, 676500, 675150, 673870, 672670, 671550, 670510, 669560, 668690, 667900, 667170, 666510,
    665890, 665330, 664800, 664300, 663820, 663360, 662900, 662450, 661990, 661540, 661070, 660600, 660110,
    659610, 659090, 658540, 657970, 657380, 656770, 656160, 655530, 654910, 654290, 653670, 653070, 652490,
    651930, 651400, 650900, 650440, 650020, 649650, 649330, 649070, 648870, 648740, 648680, 648690, 648750,
    648870, 649030, 649240, 649480, 649740, 650020, 650320, 650630, 650940, 651270, 651620, 651990, 652380,
    652810, 653270, 653760, 654300, 654880, 655510, 656170, 656890, 657640, 658440, 659270, 660150, 661060,
    662020, 663010, 664050, 665120, 666230, 667380, 668560, 669790, 671060, 672370, 673720, 675110, 676530,
    677980, 679440, 680900, 682370, 683820, 685250, 686660, 688030, 689360, 690640, 691870, 693050, 694190,
    695280, 696310, 697300, 698230, 699110, 699940, 700710, 701450, 702140, 702800, 703440, 704050, 704640,
    705220, 705790, 706360, 706910, 707450, 707950, 708420, 708850, 709210, 709520, 709760, 709910, 709980,
    709970, 709900, 709770, 709600, 709400, 709180, 708960, 708730, 708530, 708350, 708210, 708110, 708060,
    708070, 708140, 708270, 708490, 708790, 709180, 709670, 710250, 710940, 711730, 712610, 713600, 714690,
    715890, 717190, 718590, 720100, 721710, 723410, 725210, 727100, 729060, 731110, 733220, 735410, 737660,
    739970, 742380, 744900, 747580, 750430, 753500, 756810, 760390, 764280, 768500, 773060, 777870, 782810,
    787780, 792650, 797310, 801640, 805530, 808860, 811530, 813450, 814670, 815310, 815460, 815210, 814670,
    813940, 813100, 812270, 811530, 810970, 810590, 810360, 810270, 810300, 810430, 810640, 810900, 811210,
    811530, 811850, 812160, 812420, 812630, 812760, 812790, 812700, 812470, 812090]
  len := by decide +kernel

/-- `CES61` (hpp:4584-4624). -/
def CES61 : Table where
  scale := 6
  m := [
    288730, 292590, 296480, 300390, 304340, 308310, 312310, 316340, 320400, 324490, 328600, 332740, 336900,
    341100, 345310, 349550, 353810, 358100, 362410, 366740, 369770, 374720, 379600, 384410, 389160, 393830,
    398430, 402960, 407420, 411800, 416110, 420350, 424510, 428600, 432600, 436540, 440390, 444170, 447860,
    451480, 455020, 458470, 461850, 465150, 468370, 471510, 474590, 477590, 480520, 483380, 486180, 488910,
    491570, 494160, 496690, 499150, 501540, 503860, 506100, 508280, 510390, 512430, 514400, 516300, 518140,
    519920, 521640, 523320, 524940, 526520, 528060, 529550, 531000, 532390, 533720, 534970, 536140, 537230,
    538220, 539100, 539870, 540520, 541060, 541510, 541890, 542200, 542480, 542720, 542950, 543190, 543440,
    543730, 544070, 544490, 545000, 545630, 546400, 547330, 548440, 549750, 551280, 553040, 555030, 557200,
    559530, 562000, 564590, 567250, 569980, 572730, 575490, 578230, 580950, 583620, 586260, 588840, 591360,
    593810, 596190, 598490, 600700, 602810, 604830, 606750, 608580, 610310, 611950, 613490, 614950, 616300,
    617570, 618740, 619790, 620670, 621370, 621840, 622050, 621970, 621570, 620810, 619650, 618090, 616130,
    613810, 611170, 608240, 605050, 601640, 598030, 594270, 590380, 586390, 582320, 578170, 573950, 569650,
    565290, 560870, 556400, 551880, 547310, 542700, 538070, 533400, 528700, 523990, 519260, 514520, 509770,
    505020, 500270, 495530, 490810, 486150, 481550, 477040, 472650, 468380, 464270, 460340, 456600, 453080,
    449760, 446630, 443670, 440880, 438240, 435740, 433360, 431090, 428920, 426830, 424820, 422900, 421060,
    419300, 417620, 416030, 414520, 413090, 411750, 410480, 409300, 408200, 407170, 406210, 405320, 404500,
    403750, 403050, 402420, 401840, 401320, 400830, 400390, 399980, 399590, 399220, 398860, 398510, 398150,
    397790, 397420, 397060, 396700, 396340, 395990, 395660, 395340, 395050, 394780, 394530, 394320, 394140,
    393990, 393870, 393790, 393750, 393760, 393800, 393880, 394010, 394190, 394400, 394660, 394950, 395270,
    395630, 396010, 396420, 396860, 397320, 397810, 398320, 398860, 399430, 400040, 400670, 401350, 402060,
    402820, 403610, 404440, 405300, 406190, 407100, 408020, 408950, 409890, 410820, 411750, 412660, 413550,
    414420, 415250, 416040, 416780, 417460, 418080, 418620, 419090, 419480, 419780, 420010, 420170, 420280,
    420320, 420320, 420280, 420200, 420080, 419950, 419780, 419600, 419400, 419170, 418930, 418670, 418400,
    418100, 417800, 417480, 417150, 416810, 416450, 416070, 415680, 415270, 414840, 414400, 413930, 413440,
    412930, 412400, 411850, 411270, 410660, 410030, 409370, 408690, 407980, 407800, 407250, 406710, 406160,
    405620, 405070, 404530, 403980, 403440, 402890, 402350, 401800, 401260, 400720, 400170, 399630, 399090,
    398540, 398000, 397460, 396920, 396380, 395830, 395290, 394750, 394210, 393670, 393130, 392590, 392050,
    391510, 390970, 390440, 389900, 389360, 388820, 388280, 387750, 387210, 386670, 386140, 385600, 385060,
    384530, 383990, 383460, 382920, 382390, 381850, 381320, 380790, 380250, 379720, 379190, 378650, 378120,
    377590, 377060, 376530, 375990, 375460, 374930, 374400, 373870, 373340, 372810, 372290, 371760, 371230,
    370700, 370170, 369640, 369120, 368590, 368060, 367540, 367010, 366490, 365960]
  len := by decide +kernel

/-- `CES62` (hpp:4625-4665). -/
def CES62 : Table where
  scale := 6
  m := [
    170090, 171900, 173730, 175570, 177430, 179300, 181190, 183090, 185010, 186950, 188900, 190860, 192850,
    194840, 196860, 198880, 200930, 202990, 205060, 207160, 208490, 211000, 213440, 215820, 218150, 220430,
    222660, 224870, 227040, 229190, 231330, 233460, 235580, 237700, 239840, 241990, 244160, 246350, 248580,
    250860, 253170, 255540, 257960, 260430, 262950, 265510, 268120, 270770, 273470, 276210, 278990, 281800,
    284670, 287580, 290540, 293570, 296660, 299810, 303050, 306360, 309760, 313250, 316820, 320470, 324190,
    327960, 331790, 335670, 339580, 343530, 347490, 351470, 355460, 359440, 363400, 367330, 371230, 375080,
    378860, 382580, 386210, 389750, 393190, 396520, 399730, 402810, 405760, 408560, 411200, 413690, 416000,
    418130, 420080, 421870, 423480, 424930, 426230, 427370, 428350, 429200, 429900, 430460, 430880, 431160,
    431290, 431280, 431120, 430800, 430330, 429700, 428900, 427950, 426840, 425580, 424170, 422620, 420940,
    419140, 417210, 415170, 413020, 410770, 408430, 406010, 403530, 401010, 398460, 395880, 393310, 390740,
    388200, 385690, 383230, 380830, 378500, 376230, 374060, 371970, 369980, 368110, 366360, 364720, 363200,
    361770, 360400, 359080, 357780, 356490, 355190, 353850, 352460, 350990, 349460, 347860, 346210, 344510,
    342780, 341010, 339210, 337400, 335580, 333750, 331930, 330130, 328350, 326600, 324900, 323250, 321660,
    320140, 318700, 317350, 316100, 314960, 313930, 313030, 312270, 311650, 311180, 310880, 310760, 310810,
    311020, 311360, 311830, 312380, 313000, 313670, 314360, 315050, 315720, 316350, 316920, 317440, 317880,
    318250, 318540, 318740, 318830, 318820, 318700, 318460, 318100, 317650, 317120, 316510, 315830, 315110,
    314340, 313550, 312740, 311930, 311120, 310330, 309550, 308810, 308100, 307440, 306820, 306270, 305790,
    305390, 305060, 304800, 304610, 304490, 304430, 304430, 304500, 304620, 304800, 305030, 305300, 305600,
    305930, 306270, 306600, 306940, 307250, 307530, 307780, 307980, 308140, 308260, 308360, 308430, 308500,
    308560, 308620, 308690, 308770, 308880, 309010, 309180, 309390, 309640, 309950, 310300, 310720, 311200,
    311750, 312380, 313090, 313890, 314790, 315790, 316910, 318150, 319520, 321020, 322670, 324470, 326430,
    328550, 330840, 333300, 335950, 338790, 341820, 345050, 348480, 352130, 356000, 360080, 364390, 368930,
    373700, 378700, 383940, 389420, 395150, 401120, 407350, 413840, 420580, 427580, 434850, 442390, 450190,
    458270, 466630, 475270, 484160, 493290, 502630, 512160, 521870, 531720, 541700, 551780, 561940, 572170,
    582430, 592700, 602970, 613210, 623400, 633520, 643540, 653450, 663210, 671790, 681040, 690160, 699130,
    707940, 716610, 725120, 733470, 741650, 749670, 757520, 765200, 772720, 780060, 787230, 794220, 801050,
    807700, 814180, 820500, 826640, 832620, 838430, 844070, 849560, 854880, 860050, 865060, 869920, 874630,
    879200, 883620, 887900, 892040, 896040, 899910, 903660, 907280, 910770, 914150, 917410, 920560, 923600,
    926530, 929360, 932080, 934710, 937240, 939690, 942040, 944310, 946490, 948590, 950610, 952560, 954440,
    956240, 957980, 959640, 961250, 962800, 964280, 965710, 967080, 968400, 969670, 970890, 972060, 973190,
    974270, 975310, 976310, 977260, 978190, 979070, 979920, 980730, 981520, 982270]
  len := by decide +kernel

/-- `CES63` (hpp:4666-4706). -/
def CES63 : Table where
  scale := 6
  m := [
    23525, 24208, 24909, 25631, 26372, 27135, 27919, 28725, 29553, 30405, 31280, 32180, 33105, 34055, 35032,
    36036, 37067, 38127, 39216, 40334, 39557, 41640, 43603, 45448, 47180, 48801, 50316, 51728, 53040, 54256,
    55379, 56414, 57362, 58229, 59016, 59729, 60370, 60943, 61452, 61899, 62289, 62626, 62914, 63162, 63375,
    63560, 63724, 63872, 64012, 64150, 64292, 64444, 64608, 64786, 64978, 65185, 65409, 65651, 65912, 66193,
    66495, 66820, 67168, 67538, 67932, 68350, 68791, 69257, 69747, 70262, 70801, 71367, 71960, 72584, 73240,
    73932, 74662, 75432, 76246, 77105, 78012, 78968, 79969, 81008, 82079, 83176, 84292, 85421, 86558, 87695,
    88827, 89948, 91055, 92146, 93219, 94271, 95300, 96304, 97280, 98227, 99142, 100020, 100860, 101650,
    102390, 103060, 103660, 104190, 104640, 104990, 105250, 105410, 105460, 105420, 105290, 105080, 104780,
    104400, 103950, 103430, 102850, 102200, 101500, 100750, 99938, 99080, 98175, 97225, 96233, 95202, 94135,
    93034, 91903, 90746, 89569, 88376, 87170, 85958, 84742, 83527, 82318, 81119, 79930, 78753, 77589, 76437,
    75300, 74177, 73069, 71977, 70902, 69844, 68808, 67796, 66811, 65859, 64941, 64061, 63224, 62432, 61688,
    60997, 60359, 59776, 59247, 58775, 58359, 58001, 57702, 57462, 57282, 57164, 57108, 57114, 57184, 57319,
    57519, 57784, 58117, 58516, 58985, 59521, 60122, 60782, 61498, 62265, 63077, 63931, 64822, 65745, 66696,
    67669, 68660, 69662, 70670, 71677, 72679, 73669, 74641, 75590, 76510, 77395, 78240, 79041, 79793, 80492,
    81132, 81710, 82220, 82658, 83019, 83300, 83502, 83628, 83681, 83664, 83579, 83429, 83217, 82946, 82618,
    82237, 81808, 81334, 80822, 80276, 79700, 79101, 78484, 77852, 77211, 76565, 75917, 75267, 74618, 73970,
    73325, 72684, 72049, 71421, 70801, 70192, 69593, 69007, 68436, 67880, 67342, 66823, 66324, 65847, 65394,
    64965, 64558, 64173, 63806, 63457, 63122, 62799, 62488, 62185, 61889, 61598, 61315, 61045, 60790, 60553,
    60340, 60153, 59996, 59872, 59786, 59739, 59734, 59768, 59841, 59954, 60105, 60295, 60522, 60786, 61088,
    61425, 61798, 62205, 62644, 63115, 63615, 64145, 64702, 65286, 65894, 66528, 67188, 67878, 68601, 69360,
    70158, 70999, 71885, 72820, 73806, 74845, 75935, 77070, 78247, 79460, 80706, 81980, 83277, 84593, 85923,
    87264, 88610, 89957, 91300, 92636, 93960, 95267, 96552, 97812, 99042, 100920, 102390, 103890, 105410,
    106940, 108500, 110080, 111670, 113290, 114920, 116580, 118260, 119950, 121670, 123410, 125170, 126960,
    128760, 130590, 132440, 134310, 136200, 138120, 140050, 142020, 144000, 146010, 148030, 150090, 152160,
    154260, 156390, 158530, 160700, 162900, 165120, 167360, 169630, 171920, 174240, 176580, 178940, 181330,
    183750, 186190, 188650, 191140, 193660, 196200, 198760, 201350, 203970, 206610, 209270, 211970, 214680,
    217420, 220190, 222980, 225800, 228640, 231510, 234400, 237310, 240260, 243220, 246210, 249230, 252270,
    255340, 258430, 261540, 264680, 267840, 271020, 274230, 277470, 280720, 284000]
  len := by decide +kernel

/-- `CES64` (hpp:4707-4747). -/
def CES64 : Table where
  scale := 6
  m := [
    169890, 172280, 174700, 177140, 179610, 182110, 184630, 187190, 189760, 192370, 195000, 197660, 200350,
    203060, 205800, 208570, 211370, 214190, 217040, 219920, 223260, 225500, 228300, 231540, 235120, 238930,
    242840, 246760, 250570, 254170, 257430, 260280, 262750, 264890, 266760, 268420, 269920, 271320, 272680,
    274040, 275480, 277030, 278690, 280460, 282320, 284270, 286290, 288370, 290500, 292670, 294880, 297110,
    299370, 301660, 303980, 306350, 308770, 311250, 313780, 316390, 319060, 321810, 324650, 327580, 330620,
    333770, 337040, 340440, 343970, 347660, 351500, 355500, 359670, 363990, 368470, 373100, 377880, 382810,
    387870, 393080, 398420, 403890, 409470, 415150, 420890, 426680, 432500, 438330, 444140, 449920, 455650,
    461300, 466850, 472290, 477580, 482710, 487650, 492390, 496900, 501150, 505140, 508830, 512230, 515330,
    518140, 520640, 522840, 524730, 526320, 527610, 528580, 529250, 529610, 529680, 529460, 528950, 528180,
    527140, 525840, 524290, 522500, 520470, 518210, 515740, 513050, 510160, 507070, 503800, 500350, 496730,
    492950, 489020, 484930, 480710, 476350, 471850, 467230, 462500, 457640, 452680, 447610, 442440, 437190,
    431850, 426430, 420950, 415410, 409820, 404180, 398510, 392810, 387090, 381350, 375590, 369820, 364030,
    358220, 352400, 346570, 340720, 334870, 329010, 323140, 317270, 311410, 305560, 299730, 293920, 288140,
    282380, 276670, 271000, 265380, 259830, 254340, 248930, 243620, 238400, 233290, 228300, 223440, 218710,
    214120, 209660, 205340, 201150, 197100, 193180, 189390, 185730, 182210, 178820, 175550, 172400, 169360,
    166430, 163600, 160850, 158190, 155610, 153100, 150650, 148270, 145940, 143670, 141450, 139270, 137140,
    135050, 133000, 130990, 129010, 127060, 125150, 123290, 121470, 119700, 117990, 116330, 114730, 113200,
    111740, 110340, 109010, 107750, 106570, 105450, 104410, 103440, 102540, 101710, 100960, 100270, 99654,
    99094, 98591, 98139, 97733, 97369, 97043, 96750, 96486, 96247, 96033, 95839, 95665, 95508, 95365, 95234,
    95113, 95000, 94892, 94791, 94698, 94615, 94543, 94483, 94438, 94408, 94395, 94400, 94425, 94472, 94541,
    94635, 94753, 94898, 95071, 95273, 95506, 95770, 96067, 96394, 96750, 97131, 97535, 97959, 98401, 98859,
    99329, 99810, 100300, 100790, 101290, 101800, 102310, 102810, 103320, 103830, 104340, 104840, 105340,
    105830, 106310, 106790, 107250, 107700, 108130, 108540, 108940, 109320, 109680, 110010, 110310, 110590,
    110840, 111060, 111240, 111400, 111510, 111590, 111630, 111640, 111610, 111570, 111510, 111430, 111360,
    111280, 111210, 111150, 111070, 111000, 110930, 110860, 110790, 110720, 110650, 110580, 110510, 110440,
    110370, 110300, 110230, 110160, 110080, 110010, 109940, 109870, 109800, 109730, 109660, 109590, 109520,
    109450, 109380, 109310, 109240, 109170, 109100, 109030, 108960, 108890, 108830, 108760, 108690, 108620,
    108550, 108480, 108410, 108340, 108270, 108200, 108130, 108060, 107990, 107920, 107850, 107790, 107720,
    107650, 107580, 107510, 107440, 107370, 107300, 107230, 107170, 107100, 107030, 106960, 106890, 106820,
    106750, 106690, 106620, 106550, 106480, 106410, 106340, 106280, 106210, 106140, 106070, 106000, 105940,
    105870, 105800, 105730, 105660]
  len := by decide +kernel

/-- `CES65` (hpp:4748-4788). -/
def CES65 : Table where
  scale := 6
  m := [
    6016, 6529, 7086, 7689, 8344, 9053, 9823, 10657, 11561, 12540, 13602, 14752, 15998, 17348, 18809, 20390,
    22101, 23953, 25955, 28120, 29489, 32119, 35136, 38499, 42163, 46088, 50229, 54545, 58993, 63529, 68113,
    72700, 77249, 81717, 86060, 90237, 94205, 97922, 101340, 104430, 107130, 109430, 111350, 112950, 114250,
    115330, 116210, 116940, 117580, 118170, 118750, 119360, 120010, 120680, 121370, 122070, 122780, 123480,
    124180, 124850, 125500, 126120, 126720, 127310, 127900, 128500, 129120, 129780, 130480, 131230, 132060,
    132950, 133930, 134980, 136110, 137330, 138630, 140010, 141480, 143030, 144670, 146390, 148200, 150100,
    152090, 154170, 156320, 158570, 160900, 163310, 165810, 168390, 171030, 173700, 176370, 179020, 181630,
    184160, 186580, 188890, 191030, 193000, 194780, 196350, 197690, 198800, 199650, 200240, 200550, 200560,
    200270, 199650, 198740, 197550, 196100, 194430, 192540, 190470, 188240, 185870, 183390, 180810, 178160,
    175440, 172670, 169870, 167050, 164230, 161420, 158630, 155890, 153190, 150560, 148000, 145520, 143130,
    140830, 138640, 136550, 134590, 132750, 131050, 129470, 128000, 126640, 125370, 124180, 123070, 122010,
    121010, 120040, 119100, 118190, 117290, 116400, 115520, 114640, 113760, 112860, 111940, 111010, 110040,
    109060, 108070, 107070, 106090, 105120, 104170, 103260, 102390, 101570, 100820, 100130, 99521, 98997,
    98566, 98236, 98017, 97915, 97940, 98098, 98395, 98818, 99351, 99976, 100680, 101440, 102240, 103070,
    103920, 104750, 105560, 106340, 107060, 107700, 108270, 108730, 109070, 109270, 109330, 109220, 108930,
    108470, 107840, 107050, 106120, 105040, 103830, 102500, 101050, 99489, 97830, 96085, 94268, 92393,
    90474, 88527, 86563, 84599, 82647, 80723, 78837, 76992, 75185, 73417, 71686, 69990, 68329, 66702, 65108,
    63546, 62013, 60510, 59034, 57584, 56159, 54757, 53376, 52015, 50673, 49347, 48037, 46743, 45464, 44200,
    42951, 41718, 40500, 39297, 38109, 36936, 35778, 34637, 33514, 32411, 31331, 30273, 29241, 28235, 27258,
    26312, 25397, 24515, 23665, 22848, 22065, 21316, 20601, 19921, 19276, 18666, 18093, 17553, 17046, 16571,
    16126, 15709, 15319, 14955, 14615, 14298, 14002, 13725, 13468, 13229, 13007, 12801, 12609, 12432, 12267,
    12113, 11971, 11839, 11717, 11605, 11502, 11408, 11324, 11248, 11180, 11120, 11069, 11024, 10988, 10958,
    10935, 10920, 10911, 10908, 10912, 10922, 10938, 10959, 10987, 11019, 11057, 11100, 11148, 11201, 11258,
    11319, 11270, 11300, 11329, 11359, 11389, 11418, 11448, 11478, 11508, 11539, 11569, 11599, 11630, 11660,
    11691, 11721, 11752, 11783, 11813, 11844, 11875, 11907, 11938, 11969, 12000, 12032, 12063, 12095, 12127,
    12158, 12190, 12222, 12254, 12286, 12318, 12351, 12383, 12415, 12448, 12480, 12513, 12546, 12579, 12612,
    12645, 12678, 12711, 12744, 12777, 12811, 12844, 12878, 12912, 12945, 12979, 13013, 13047, 13081, 13116,
    13150, 13184, 13219, 13253, 13288, 13323, 13358, 13393, 13428, 13463, 13498, 13533, 13569, 13604, 13640,
    13675, 13711, 13747, 13783, 13819]
  len := by decide +kernel

/-- `CES66` (hpp:4789-4829). -/
def CES66 : Table where
  scale := 6
  m := [
    99631, 100770, 101920, 103080, 104260, 105440, 106640, 107850, 109070, 110300, 111550, 112800, 114070,
    115360, 116650, 117960, 119280, 120610, 121960, 123320, 124900, 125950, 127270, 128810, 130500, 132310,
    134180, 136070, 137910, 139680, 141300, 142750, 144040, 145200, 146240, 147210, 148130, 149020, 149910,
    150830, 151800, 152850, 153970, 155180, 156450, 157800, 159210, 160690, 162240, 163840, 165500, 167220,
    168990, 170820, 172710, 174670, 176680, 178760, 180910, 183120, 185400, 187750, 190180, 192690, 195290,
    197980, 200760, 203650, 206650, 209770, 213000, 216360, 219840, 223460, 227200, 231070, 235070, 239200,
    243470, 247870, 252400, 257070, 261840, 266710, 271630, 276600, 281570, 286530, 291460, 296320, 301100,
    305770, 310300, 314690, 318920, 322950, 326790, 330390, 333760, 336870, 339700, 342240, 344470, 346420,
    348070, 349430, 350500, 351280, 351770, 351980, 351900, 351540, 350900, 349990, 348810, 347370, 345680,
    343740, 341560, 339150, 336500, 333630, 330550, 327270, 323800, 320160, 316360, 312410, 308330, 304120,
    299800, 295380, 290880, 286290, 281640, 276920, 272150, 267330, 262480, 257600, 252700, 247790, 242880,
    237980, 233080, 228200, 223350, 218520, 213730, 208990, 204300, 199660, 195090, 190570, 186120, 181740,
    177430, 173180, 169010, 164920, 160900, 156960, 153110, 149330, 145630, 142020, 138490, 135040, 131680,
    128400, 125200, 122090, 119060, 116130, 113290, 110540, 107890, 105340, 102880, 100540, 98300, 96169,
    94144, 92220, 90394, 88664, 87024, 85471, 84002, 82613, 81300, 80060, 78888, 77781, 76735, 75745, 74807,
    73918, 73073, 72268, 71500, 70764, 70059, 69382, 68732, 68107, 67506, 66926, 66367, 65825, 65300, 64790,
    64295, 63815, 63350, 62901, 62468, 62051, 61651, 61267, 60900, 60550, 60217, 59902, 59605, 59325, 59063,
    58820, 58594, 58388, 58200, 58031, 57879, 57743, 57621, 57512, 57414, 57325, 57244, 57170, 57100, 57034,
    56971, 56911, 56855, 56802, 56754, 56709, 56668, 56632, 56600, 56572, 56549, 56530, 56515, 56504, 56497,
    56493, 56492, 56495, 56500, 56508, 56520, 56536, 56556, 56581, 56612, 56648, 56692, 56742, 56800, 56866,
    56939, 57020, 57105, 57196, 57292, 57390, 57492, 57595, 57700, 57805, 57910, 58015, 58118, 58221, 58322,
    58420, 58517, 58610, 58700, 58786, 58869, 58948, 59024, 59096, 59164, 59228, 59289, 59346, 59400, 59450,
    59496, 59538, 59576, 59609, 59638, 59661, 59680, 59693, 59700, 59702, 59698, 59691, 59680, 59667, 59653,
    59638, 59624, 59611, 59600, 59585, 59572, 59559, 59545, 59532, 59519, 59506, 59492, 59479, 59466, 59453,
    59439, 59426, 59413, 59400, 59386, 59373, 59360, 59347, 59333, 59320, 59307, 59294, 59280, 59267, 59254,
    59241, 59227, 59214, 59201, 59188, 59175, 59161, 59148, 59135, 59122, 59109, 59095, 59082, 59069, 59056,
    59043, 59030, 59016, 59003, 58990, 58977, 58964, 58951, 58937, 58924, 58911, 58898, 58885, 58872, 58858,
    58845, 58832, 58819, 58806, 58793, 58780, 58767, 58753, 58740, 58727, 58714, 58701, 58688, 58675, 58662,
    58649, 58635, 58622, 58609, 58596, 58583, 58570, 58557]
  len := by decide +kernel

/-- `CES67` (hpp:4830-4870). -/
def CES67 : Table where
  scale := 6
  m := [
    109270, 110920, 112600, 114290, 116010, 117750, 119520, 121300, 123110, 124950, 126800, 128680, 130590,
    132510, 134460, 136440, 138440, 140470, 142510, 144590, 147000, 148630, 150660, 153020, 155630, 158420,
    161300, 164190, 167030, 169720, 172200, 174400, 176350, 178070, 179620, 181020, 182320, 183540, 184740,
    185950, 187200, 188530, 189940, 191440, 193010, 194670, 196410, 198240, 200140, 202130, 204200, 206350,
    208580, 210880, 213270, 215730, 218260, 220860, 223540, 226290, 229100, 231980, 234940, 237980, 241100,
    244310, 247630, 251050, 254580, 258230, 262000, 265900, 269940, 274100, 278390, 282810, 287360, 292030,
    296830, 301750, 306800, 311970, 317230, 322550, 327920, 333300, 338670, 343980, 349230, 354380, 359400,
    364270, 368970, 373480, 377800, 381920, 385810, 389470, 392880, 396020, 398900, 401490, 403780, 405770,
    407440, 408780, 409790, 410460, 410770, 410720, 410300, 409500, 408340, 406820, 404980, 402820, 400360,
    397630, 394630, 391380, 387900, 384210, 380320, 376230, 371970, 367540, 362960, 358230, 353370, 348390,
    343300, 338110, 332840, 327490, 322080, 316610, 311110, 305570, 300020, 294460, 288900, 283360, 277840,
    272340, 266880, 261450, 256070, 250740, 245470, 240250, 235100, 230020, 225010, 220080, 215220, 210430,
    205720, 201080, 196510, 192020, 187600, 183260, 178990, 174800, 170690, 166660, 162700, 158830, 155040,
    151330, 147700, 144160, 140700, 137330, 134070, 130900, 127830, 124880, 122030, 119310, 116700, 114220,
    111860, 109610, 107480, 105450, 103530, 101710, 99983, 98348, 96800, 95334, 93947, 92633, 91387, 90206,
    89084, 88017, 87001, 86030, 85100, 84207, 83348, 82520, 81721, 80949, 80201, 79474, 78767, 78076, 77400,
    76736, 76084, 75446, 74821, 74211, 73616, 73037, 72474, 71928, 71400, 70891, 70401, 69934, 69489, 69070,
    68676, 68311, 67976, 67672, 67400, 67162, 66956, 66778, 66627, 66498, 66389, 66298, 66221, 66156, 66100,
    66050, 66005, 65963, 65925, 65889, 65853, 65818, 65781, 65742, 65700, 65654, 65607, 65559, 65514, 65472,
    65437, 65410, 65394, 65390, 65400, 65427, 65469, 65527, 65599, 65685, 65784, 65896, 66020, 66155, 66300,
    66455, 66618, 66788, 66962, 67138, 67316, 67493, 67667, 67836, 68000, 68156, 68303, 68441, 68569, 68687,
    68794, 68889, 68973, 69043, 69100, 69143, 69174, 69193, 69201, 69200, 69192, 69176, 69155, 69129, 69100,
    69069, 69035, 68997, 68956, 68911, 68861, 68805, 68744, 68675, 68600, 68517, 68429, 68338, 68246, 68155,
    68068, 67986, 67913, 67850, 67800, 67722, 67655, 67588, 67521, 67454, 67388, 67321, 67254, 67188, 67121,
    67055, 66989, 66922, 66856, 66790, 66724, 66658, 66592, 66526, 66460, 66394, 66328, 66263, 66197, 66131,
    66066, 66000, 65935, 65870, 65804, 65739, 65674, 65609, 65544, 65479, 65414, 65349, 65284, 65220, 65155,
    65090, 65026, 64961, 64897, 64833, 64768, 64704, 64640, 64576, 64512, 64447, 64384, 64320, 64256, 64192,
    64128, 64065, 64001, 63937, 63874, 63811, 63747, 63684, 63621, 63557, 63494, 63431, 63368, 63305, 63242,
    63179, 63117, 63054, 62991, 62929, 62866, 62804, 62741, 62679]
  len := by decide +kernel

/-- `CES68` (hpp:4871-4911). -/
def CES68 : Table where
  scale := 6
  m := [
    221490, 224330, 227190, 230080, 233000, 235940, 238910, 241910, 244930, 247970, 251040, 254140, 257260,
    260400, 263570, 266760, 269980, 273230, 276490, 279790, 282450, 286090, 289700, 293280, 296830, 300360,
    303860, 307350, 310810, 314260, 317690, 321110, 324510, 327910, 331290, 334670, 338040, 341400, 344770,
    348130, 351490, 354860, 358220, 361580, 364920, 368260, 371570, 374860, 378130, 381370, 384570, 387740,
    390860, 393940, 396980, 399970, 402910, 405800, 408640, 411420, 414150, 416810, 419420, 421970, 424460,
    426900, 429290, 431630, 433920, 436160, 438360, 440510, 442600, 444620, 446550, 448370, 450070, 451640,
    453050, 454300, 455360, 456240, 456930, 457460, 457840, 458100, 458240, 458290, 458260, 458170, 458040,
    457890, 457730, 457590, 457490, 457450, 457500, 457650, 457940, 458370, 458970, 459760, 460720, 461820,
    463040, 464350, 465730, 467160, 468600, 470040, 471440, 472790, 474060, 475260, 476350, 477320, 478170,
    478880, 479420, 479800, 479990, 479990, 479790, 479420, 478870, 478160, 477310, 476310, 475180, 473930,
    472570, 471110, 469520, 467780, 465880, 463780, 461480, 458940, 456140, 453070, 449700, 446010, 442020,
    437770, 433280, 428560, 423660, 418600, 413400, 408100, 402710, 397260, 391770, 386260, 380730, 375200,
    369690, 364210, 358770, 353400, 348090, 342870, 337740, 332680, 327700, 322790, 317940, 313160, 308430,
    303760, 299140, 294570, 290060, 285630, 281280, 277040, 272920, 268940, 265100, 261420, 257930, 254620,
    251490, 248540, 245760, 243130, 240640, 238290, 236070, 233960, 231960, 230060, 228260, 226560, 224970,
    223490, 222120, 220870, 219740, 218730, 217840, 217080, 216450, 215920, 215510, 215190, 214970, 214830,
    214770, 214780, 214850, 214980, 215160, 215380, 215640, 215930, 216250, 216580, 216930, 217280, 217630,
    217980, 218330, 218660, 219000, 219340, 219670, 220010, 220350, 220690, 221040, 221390, 221740, 222100,
    222460, 222810, 223160, 223490, 223820, 224140, 224440, 224720, 224980, 225240, 225480, 225710, 225940,
    226160, 226370, 226590, 226810, 227030, 227260, 227500, 227770, 228070, 228400, 228780, 229200, 229670,
    230210, 230810, 231470, 232180, 232930, 233730, 234560, 235410, 236280, 237160, 238040, 238920, 239780,
    240630, 241450, 242240, 242980, 243670, 244300, 244860, 245350, 245760, 246100, 246360, 246560, 246690,
    246780, 246810, 246810, 246770, 246690, 246600, 246480, 246330, 246170, 245990, 245790, 245570, 245340,
    245100, 244840, 244570, 244290, 244000, 243700, 243380, 243050, 242700, 242330, 241940, 241540, 241120,
    240680, 240210, 239720, 239210, 238680, 238120, 237540, 236930, 236290, 236170, 235700, 235220, 234750,
    234280, 233800, 233330, 232860, 232390, 231920, 231450, 230980, 230520, 230050, 229580, 229120, 228650,
    228190, 227720, 227260, 226800, 226340, 225870, 225410, 224950, 224500, 224040, 223580, 223120, 222670,
    222210, 221750, 221300, 220850, 220390, 219940, 219490, 219040, 218590, 218140, 217690, 217240, 216790,
    216340, 215900, 215450, 215010, 214560, 214120, 213680, 213230, 212790, 212350, 211910, 211470, 211030,
    210590, 210160, 209720, 209280, 208850, 208410, 207980, 207540, 207110, 206680, 206250, 205810, 205380,
    204950, 204520, 204100, 203670, 203240, 202820, 202390, 201960, 201540, 201120]
  len := by decide +kernel

/-- `CES69` (hpp:4912-4952). -/
def CES69 : Table where
  scale := 6
  m := [
    132250, 133640, 135050, 136460, 137890, 139330, 140780, 142250, 143720, 145210, 146720, 148230, 149760,
    151310, 152860, 154430, 156010, 157610, 159210, 160840, 162200, 163980, 165750, 167500, 169250, 170980,
    172710, 174440, 176160, 177890, 179610, 181340, 183070, 184810, 186560, 188310, 190090, 191870, 193670,
    195490, 197330, 199200, 201080, 202970, 204880, 206790, 208700, 210610, 212520, 214410, 216300, 218160,
    220000, 221830, 223630, 225400, 227150, 228860, 230550, 232200, 233810, 235390, 236930, 238440, 239920,
    241360, 242770, 244150, 245510, 246830, 248140, 249410, 250650, 251840, 252950, 253990, 254920, 255750,
    256450, 257010, 257410, 257650, 257730, 257680, 257510, 257240, 256880, 256460, 255980, 255470, 254940,
    254410, 253900, 253430, 253010, 252670, 252430, 252300, 252300, 252450, 252770, 253280, 253950, 254780,
    255730, 256790, 257930, 259150, 260400, 261690, 262980, 264250, 265500, 266720, 267890, 269020, 270080,
    271080, 272010, 272840, 273590, 274230, 274780, 275230, 275590, 275870, 276060, 276170, 276210, 276170,
    276060, 275890, 275630, 275260, 274770, 274130, 273330, 272330, 271130, 269700, 268020, 266080, 263900,
    261490, 258880, 256090, 253150, 250080, 246900, 243630, 240310, 236940, 233540, 230120, 226700, 223270,
    219840, 216430, 213050, 209710, 206400, 203150, 199950, 196800, 193690, 190640, 187630, 184660, 181730,
    178850, 176000, 173200, 170440, 167750, 165130, 162600, 160170, 157850, 155650, 153590, 151680, 149930,
    148340, 146880, 145570, 144380, 143310, 142350, 141490, 140720, 140040, 139440, 138920, 138510, 138200,
    138020, 137970, 138060, 138310, 138720, 139320, 140100, 141050, 142170, 143420, 144810, 146310, 147910,
    149580, 151330, 153130, 154960, 156820, 158690, 160560, 162420, 164260, 166070, 167830, 169530, 171160,
    172710, 174190, 175600, 176930, 178200, 179410, 180570, 181670, 182720, 183730, 184700, 185630, 186510,
    187360, 188160, 188930, 189650, 190330, 190970, 191560, 192120, 192630, 193110, 193550, 193960, 194340,
    194690, 195010, 195310, 195580, 195840, 196080, 196320, 196570, 196820, 197080, 197380, 197700, 198060,
    198470, 198930, 199430, 199980, 200560, 201170, 201800, 202450, 203110, 203780, 204440, 205100, 205750,
    206380, 206980, 207560, 208100, 208600, 209050, 209460, 209800, 210090, 210320, 210500, 210630, 210710,
    210760, 210770, 210740, 210700, 210630, 210540, 210440, 210320, 210180, 210030, 209870, 209690, 209500,
    209300, 209080, 208860, 208620, 208370, 208110, 207840, 207560, 207260, 206960, 206630, 206300, 205950,
    205590, 205220, 204830, 204420, 204000, 203570, 203120, 202660, 202180, 202020, 201640, 201270, 200890,
    200510, 200130, 199760, 199380, 199000, 198630, 198250, 197880, 197510, 197130, 196760, 196390, 196020,
    195650, 195280, 194910, 194540, 194170, 193800, 193430, 193070, 192700, 192330, 191970, 191600, 191240,
    190880, 190510, 190150, 189790, 189420, 189060, 188700, 188340, 187980, 187620, 187260, 186910, 186550,
    186190, 185840, 185480, 185120, 184770, 184410, 184060, 183710, 183350, 183000, 182650, 182300, 181950,
    181600, 181250, 180900, 180550, 180200, 179850, 179510, 179160, 178820, 178470, 178120, 177780, 177440,
    177090, 176750, 176410, 176070, 175720, 175380, 175040, 174700, 174360, 174030]
  len := by decide +kernel

/-- `CES70` (hpp:4953-4993). -/
def CES70 : Table where
  scale := 6
  m := [
    317940, 323480, 329060, 334680, 340360, 346080, 351850, 357660, 363520, 369410, 375340, 381310, 387320,
    393360, 399440, 405540, 411680, 417840, 424030, 430240, 435370, 442130, 448810, 455430, 461970, 468450,
    474860, 481210, 487490, 493710, 499880, 505990, 512040, 518040, 523990, 529900, 535750, 541560, 547320,
    553040, 558720, 564360, 569960, 575510, 581000, 586440, 591820, 597130, 602370, 607530, 612610, 617610,
    622520, 627340, 632070, 636720, 641270, 645740, 650110, 654390, 658570, 662660, 666660, 670560, 674350,
    678050, 681640, 685130, 688510, 691790, 694950, 698000, 700930, 703720, 706380, 708900, 711260, 713450,
    715470, 717310, 718960, 720410, 721670, 722750, 723640, 724380, 724940, 725360, 725630, 725760, 725760,
    725630, 725390, 725020, 724530, 723920, 723200, 722360, 721410, 720340, 719160, 717870, 716470, 714960,
    713340, 711610, 709760, 707800, 705720, 703540, 701230, 698820, 696290, 693640, 690880, 688000, 685010,
    681900, 678670, 675330, 671870, 668290, 664600, 660800, 656890, 652880, 648780, 644580, 640300, 635920,
    631470, 626940, 622330, 617630, 612840, 607960, 602980, 597900, 592710, 587420, 582010, 576480, 570850,
    565130, 559320, 553430, 547480, 541480, 535440, 529370, 523270, 517170, 511060, 504970, 498880, 492830,
    486800, 480820, 474880, 469010, 463200, 457460, 451790, 446200, 440680, 435230, 429850, 424540, 419290,
    414110, 408990, 403940, 398960, 394070, 389270, 384580, 380000, 375540, 371230, 367050, 363030, 359180,
    355480, 351940, 348540, 345280, 342150, 339140, 336250, 333460, 330780, 328190, 325700, 323310, 321010,
    318800, 316700, 314690, 312770, 310960, 309240, 307630, 306100, 304670, 303330, 302080, 300910, 299810,
    298800, 297850, 296980, 296170, 295430, 294750, 294120, 293550, 293030, 292560, 292140, 291760, 291420,
    291110, 290850, 290620, 290420, 290270, 290140, 290050, 289990, 289970, 289970, 290010, 290080, 290170,
    290280, 290410, 290550, 290710, 290870, 291040, 291210, 291380, 291550, 291710, 291880, 292060, 292240,
    292430, 292630, 292840, 293070, 293300, 293560, 293840, 294150, 294500, 294880, 295300, 295770, 296300,
    296880, 297520, 298210, 298960, 299740, 300570, 301420, 302300, 303190, 304100, 305020, 305930, 306840,
    307730, 308590, 309410, 310180, 310910, 311560, 312140, 312640, 313050, 313380, 313630, 313800, 313920,
    313970, 313980, 313940, 313880, 313780, 313660, 313520, 313360, 313190, 312990, 312790, 312570, 312330,
    312080, 311820, 311550, 311260, 310970, 310660, 310340, 310010, 309660, 309300, 308920, 308520, 308110,
    307680, 307240, 306770, 306290, 305790, 305270, 304720, 304160, 303580, 303410, 302960, 302500, 302050,
    301600, 301140, 300690, 300240, 299780, 299330, 298880, 298430, 297980, 297530, 297080, 296630, 296180,
    295730, 295290, 294840, 294390, 293940, 293500, 293050, 292600, 292160, 291710, 291270, 290830, 290380,
    289940, 289500, 289050, 288610, 288170, 287730, 287290, 286850, 286410, 285970, 285530, 285090, 284650,
    284210, 283770, 283340, 282900, 282460, 282030, 281590, 281160, 280720, 280290, 279850, 279420, 278990,
    278550, 278120, 277690, 277260, 276830, 276400, 275970, 275540, 275110, 274680, 274250, 273820, 273390,
    272960, 272540, 272110, 271680, 271260, 270830, 270410, 269980, 269560, 269140]
  len := by decide +kernel

/-- `CES71` (hpp:4994-5034). -/
def CES71 : Table where
  scale := 6
  m := [
    36458, 37052, 37656, 38269, 38891, 39523, 40165, 40817, 41479, 42151, 42834, 43527, 44231, 44946, 45672,
    46409, 47157, 47917, 48689, 49472, 50400, 51000, 51761, 52667, 53702, 54850, 56093, 57416, 58803, 60236,
    61700, 63182, 64688, 66225, 67802, 69429, 71113, 72863, 74689, 76598, 78600, 80701, 82898, 85187, 87563,
    90022, 92560, 95171, 97851, 100600, 103400, 106260, 109170, 112120, 115120, 118140, 121200, 124280,
    127380, 130480, 133600, 136720, 139840, 142970, 146110, 149250, 152410, 155580, 158770, 161970, 165200,
    168450, 171700, 174960, 178200, 181410, 184590, 187720, 190790, 193790, 196700, 199510, 202220, 204800,
    207240, 209530, 211650, 213590, 215340, 216880, 218200, 219290, 220140, 220780, 221190, 221400, 221400,
    221210, 220820, 220250, 219500, 218580, 217490, 216250, 214860, 213330, 211680, 209890, 208000, 206000,
    203900, 201710, 199430, 197060, 194610, 192060, 189430, 186700, 183890, 180990, 178000, 174920, 171770,
    168550, 165280, 161970, 158630, 155270, 151900, 148540, 145200, 141890, 138620, 135400, 132240, 129160,
    126170, 123280, 120490, 117830, 115300, 112910, 110660, 108540, 106550, 104670, 102910, 101260, 99714,
    98262, 96900, 95621, 94409, 93246, 92115, 90998, 89876, 88734, 87552, 86313, 85000, 83599, 82110, 80540,
    78893, 77176, 75392, 73547, 71647, 69696, 67700, 65665, 63601, 61518, 59427, 57338, 55262, 53210, 51191,
    49218, 47300, 45449, 43679, 42005, 40444, 39011, 37721, 36589, 35632, 34863, 34300, 33954, 33829, 33925,
    34242, 34780, 35540, 36522, 37726, 39151, 40800, 42663, 44699, 46857, 49088, 51342, 53568, 55717, 57739,
    59583, 61200, 62549, 63633, 64462, 65047, 65402, 65536, 65461, 65189, 64732, 64100, 63308, 62378, 61336,
    60206, 59014, 57785, 56544, 55316, 54126, 53000, 51957, 50999, 50122, 49321, 48593, 47933, 47338, 46803,
    46325, 45900, 45523, 45192, 44901, 44648, 44428, 44238, 44074, 43932, 43809, 43700, 43603, 43516, 43438,
    43370, 43309, 43256, 43209, 43168, 43132, 43100, 43073, 43057, 43057, 43082, 43136, 43228, 43364, 43550,
    43793, 44100, 44477, 44931, 45467, 46091, 46808, 47624, 48546, 49579, 50728, 52000, 53398, 54919, 56556,
    58304, 60157, 62110, 64156, 66291, 68507, 70800, 73163, 75589, 78069, 80597, 83163, 85760, 88381, 91016,
    93658, 96300, 98936, 101580, 104230, 106910, 109630, 112400, 115230, 118130, 121120, 124200, 127380,
    130610, 133840, 137000, 140040, 142900, 145520, 147850, 149830, 151400, 153990, 156220, 158470, 160740,
    163050, 165380, 167730, 170120, 172520, 174960, 177430, 179920, 182430, 184980, 187550, 190150, 192780,
    195440, 198120, 200830, 203570, 206330, 209130, 211950, 214800, 217670, 220580, 223510, 226470, 229460,
    232470, 235510, 238580, 241680, 244800, 247960, 251130, 254340, 257570, 260830, 264120, 267430, 270770,
    274130, 277520, 280940, 284380, 287850, 291340, 294860, 298400, 301960, 305550, 309170, 312800, 316460,
    320150, 323850, 327580, 331330, 335100, 338890, 342710, 346540, 350400, 354270, 358160, 362070, 366000,
    369950, 373910, 377900, 381900, 385910, 389940, 393990, 398050, 402120, 406210]
  len := by decide +kernel

/-- `CES72` (hpp:5035-5075). -/
def CES72 : Table where
  scale := 6
  m := [
    377560, 380670, 383790, 386910, 390050, 393190, 396350, 399510, 402680, 405860, 409050, 412240, 415440,
    418650, 421870, 425090, 428320, 431560, 434800, 438040, 440220, 443920, 447570, 451160, 454690, 458150,
    461550, 464880, 468130, 471320, 474430, 477460, 480410, 483280, 486070, 488770, 491380, 493910, 496340,
    498670, 500910, 503050, 505100, 507060, 508930, 510730, 512450, 514110, 515710, 517250, 518740, 520180,
    521580, 522950, 524270, 525560, 526820, 528060, 529260, 530450, 531620, 532770, 533900, 535010, 536100,
    537160, 538200, 539210, 540180, 541120, 542030, 542890, 543720, 544510, 545270, 545980, 546670, 547310,
    547920, 548490, 549030, 549540, 550010, 550450, 550850, 551220, 551550, 551850, 552110, 552340, 552540,
    552700, 552820, 552920, 552970, 553000, 552990, 552950, 552880, 552780, 552640, 552470, 552270, 552040,
    551780, 551490, 551170, 550810, 550420, 550000, 549550, 549060, 548550, 548000, 547420, 546810, 546160,
    545480, 544780, 544030, 543260, 542460, 541620, 540760, 539860, 538940, 537980, 537000, 535990, 534950,
    533890, 532790, 531670, 530520, 529330, 528090, 526820, 525500, 524120, 522700, 521210, 519670, 518060,
    516410, 514720, 512980, 511210, 509410, 507590, 505750, 503900, 502040, 500180, 498320, 496460, 494610,
    492780, 490960, 489170, 487400, 485660, 483950, 482280, 480630, 479010, 477420, 475850, 474310, 472780,
    471280, 469790, 468320, 466870, 465430, 464020, 462630, 461260, 459920, 458610, 457330, 456090, 454870,
    453690, 452540, 451430, 450340, 449290, 448260, 447270, 446310, 445370, 444460, 443580, 442730, 441920,
    441150, 440420, 439730, 439090, 438490, 437950, 437460, 437020, 436630, 436280, 435980, 435710, 435480,
    435280, 435110, 434960, 434840, 434740, 434670, 434620, 434600, 434610, 434650, 434720, 434820, 434960,
    435130, 435330, 435560, 435820, 436100, 436400, 436710, 437050, 437390, 437740, 438100, 438470, 438830,
    439190, 439550, 439900, 440230, 440550, 440860, 441140, 441410, 441650, 441870, 442080, 442270, 442450,
    442620, 442790, 442940, 443100, 443260, 443420, 443590, 443770, 443970, 444190, 444430, 444710, 445020,
    445370, 445760, 446190, 446660, 447150, 447670, 448220, 448780, 449350, 449930, 450520, 451110, 451690,
    452250, 452800, 453320, 453800, 454240, 454640, 454980, 455260, 455470, 455630, 455720, 455770, 455770,
    455740, 455670, 455590, 455480, 455360, 455240, 455120, 454990, 454870, 454750, 454640, 454540, 454460,
    454390, 454330, 454300, 454290, 454300, 454320, 454360, 454410, 454480, 454560, 454650, 454750, 454850,
    454970, 455090, 455210, 455340, 455470, 455600, 455730, 455860, 455980, 456050, 456170, 456280, 456400,
    456520, 456630, 456750, 456860, 456980, 457090, 457210, 457320, 457440, 457560, 457670, 457790, 457900,
    458020, 458130, 458250, 458360, 458480, 458600, 458710, 458830, 458940, 459060, 459170, 459290, 459410,
    459520, 459640, 459750, 459870, 459980, 460100, 460220, 460330, 460450, 460560, 460680, 460790, 460910,
    461030, 461140, 461260, 461370, 461490, 461600, 461720, 461840, 461950, 462070, 462180, 462300, 462410,
    462530, 462650, 462760, 462880, 462990, 463110, 463230, 463340, 463460, 463570, 463690, 463800, 463920,
    464040, 464150, 464270, 464380, 464500, 464620, 464730, 464850, 464960, 465080]
  len := by decide +kernel

/-- `CES73` (hpp:5076-5116). -/
def CES73 : Table where
  scale := 6
  m := [
    161600, 165180, 168830, 172540, 176310, 180160, 184060, 188030, 192070, 196170, 200340, 204570, 208870,
    213240, 217670, 222170, 226730, 231360, 236060, 240820, 239980, 247840, 255080, 261770, 267950, 273700,
    279080, 284140, 288960, 293580, 298070, 302490, 306910, 311380, 315960, 320720, 325720, 331010, 336670,
    342740, 349300, 356380, 363970, 372010, 380460, 389270, 398420, 407840, 417510, 427360, 437370, 447480,
    457620, 467710, 477680, 487440, 496930, 506050, 514740, 522920, 530510, 537440, 543740, 549420, 554510,
    559040, 563040, 566520, 569530, 572080, 574190, 575910, 577240, 578210, 578840, 579160, 579170, 578910,
    578390, 577640, 576680, 575520, 574170, 572640, 570940, 569070, 567040, 564850, 562520, 560030, 557410,
    554660, 551800, 548830, 545780, 542670, 539500, 536290, 533070, 529850, 526630, 523450, 520290, 517150,
    514040, 510950, 507880, 504830, 501790, 498770, 495750, 492750, 489740, 486720, 483680, 480590, 477460,
    474260, 470990, 467630, 464180, 460620, 456960, 453200, 449360, 445440, 441440, 437370, 433250, 429080,
    424860, 420610, 416310, 411990, 407630, 403230, 398800, 394340, 389850, 385330, 380780, 376200, 371590,
    366970, 362330, 357690, 353040, 348390, 343750, 339120, 334510, 329920, 325330, 320760, 316170, 311570,
    306940, 302270, 297550, 292780, 287940, 283030, 278050, 273010, 267930, 262810, 257660, 252500, 247330,
    242160, 237010, 231880, 226780, 221740, 216770, 211870, 207060, 202360, 197790, 193340, 189050, 184910,
    180940, 177120, 173450, 169940, 166580, 163370, 160300, 157380, 154590, 151950, 149450, 147090, 144870,
    142790, 140870, 139080, 137450, 135970, 134640, 133460, 132420, 131530, 130760, 130120, 129600, 129200,
    128900, 128690, 128580, 128550, 128600, 128720, 128910, 129140, 129420, 129750, 130100, 130470, 130860,
    131260, 131660, 132050, 132410, 132750, 133040, 133290, 133480, 133600, 133640, 133600, 133480, 133290,
    133030, 132710, 132340, 131920, 131470, 130980, 130470, 129940, 129390, 128850, 128310, 127770, 127260,
    126760, 126300, 125880, 125500, 125180, 124910, 124690, 124550, 124470, 124460, 124520, 124670, 124890,
    125200, 125610, 126100, 126670, 127330, 128070, 128900, 129800, 130770, 131830, 132950, 134140, 135400,
    136720, 138080, 139490, 140940, 142410, 143910, 145420, 146950, 148480, 150010, 151540, 153080, 154620,
    156160, 157700, 159250, 160790, 162340, 163890, 165490, 167160, 168950, 170890, 173030, 175400, 178040,
    180990, 184280, 187950, 192000, 196390, 201120, 206170, 211520, 217150, 223060, 229220, 235610, 242230,
    249050, 256050, 263220, 270550, 278010, 285590, 293280, 301050, 308890, 316320, 324310, 332410, 340600,
    348900, 357280, 365750, 374310, 382950, 391660, 400440, 409280, 418180, 427140, 436150, 445190, 454280,
    463390, 472530, 481690, 490860, 500030, 509210, 518380, 527540, 536680, 545790, 554880, 563920, 572930,
    581880, 590790, 599630, 608410, 617120, 625760, 634310, 642780, 651170, 659460, 667650, 675750, 683740,
    691620, 699400, 707060, 714600, 722030, 729340, 736520, 743580, 750520, 757330, 764010, 770570, 776990,
    783290, 789450, 795490, 801400, 807170, 812820, 818340, 823740, 829000, 834150, 839160, 844050, 848830,
    853480, 858010, 862420, 866720, 870900, 874970, 878930, 882790, 886530, 890170]
  len := by decide +kernel

/-- `CES74` (hpp:5117-5157). -/
def CES74 : Table where
  scale := 6
  m := [
    33875, 34064, 34254, 34445, 34637, 34830, 35025, 35220, 35416, 35613, 35812, 36011, 36212, 36413, 36616,
    36820, 37024, 37230, 37437, 37645, 37827, 38052, 38275, 38496, 38715, 38932, 39148, 39364, 39579, 39795,
    40011, 40228, 40447, 40667, 40890, 41115, 41343, 41575, 41811, 42050, 42295, 42544, 42799, 43059, 43326,
    43599, 43879, 44166, 44461, 44764, 45075, 45394, 45724, 46064, 46416, 46782, 47161, 47557, 47969, 48399,
    48847, 49316, 49801, 50299, 50809, 51326, 51847, 52369, 52889, 53404, 53911, 54406, 54887, 55353, 55800,
    56227, 56631, 57011, 57364, 57689, 57981, 58242, 58470, 58669, 58840, 58984, 59104, 59201, 59276, 59333,
    59371, 59394, 59404, 59402, 59392, 59374, 59353, 59330, 59307, 59287, 59272, 59264, 59259, 59253, 59244,
    59226, 59195, 59149, 59083, 58993, 58875, 58726, 58548, 58342, 58110, 57854, 57577, 57281, 56966, 56637,
    56294, 55939, 55577, 55211, 54843, 54478, 54120, 53771, 53436, 53117, 52819, 52543, 52290, 52057, 51842,
    51643, 51460, 51289, 51128, 50977, 50833, 50694, 50557, 50419, 50276, 50126, 49965, 49789, 49597, 49383,
    49145, 48882, 48595, 48289, 47969, 47638, 47300, 46960, 46622, 46290, 45968, 45660, 45370, 45099, 44850,
    44627, 44431, 44266, 44135, 44039, 43982, 43967, 43991, 44054, 44154, 44291, 44463, 44668, 44905, 45174,
    45472, 45797, 46144, 46504, 46873, 47241, 47603, 47952, 48280, 48581, 48847, 49074, 49259, 49404, 49510,
    49577, 49605, 49595, 49548, 49464, 49344, 49189, 49002, 48788, 48551, 48294, 48022, 47738, 47448, 47154,
    46862, 46574, 46293, 46020, 45757, 45505, 45267, 45044, 44837, 44648, 44479, 44331, 44203, 44094, 44004,
    43931, 43874, 43831, 43803, 43788, 43784, 43791, 43807, 43831, 43860, 43895, 43932, 43971, 44010, 44047,
    44082, 44112, 44138, 44161, 44181, 44199, 44215, 44231, 44247, 44263, 44280, 44300, 44322, 44349, 44382,
    44422, 44471, 44529, 44599, 44681, 44777, 44888, 45018, 45169, 45344, 45545, 45777, 46041, 46341, 46680,
    47060, 47485, 47955, 48472, 49037, 49652, 50318, 51036, 51807, 52632, 53514, 54453, 55455, 56525, 57670,
    58895, 60205, 61607, 63107, 64709, 66421, 68246, 70189, 72253, 74440, 76755, 79200, 81779, 84495, 87350,
    90348, 93492, 96787, 100240, 103840, 107620, 111550, 115660, 119950, 124420, 129070, 133910, 138940,
    144170, 149600, 155240, 161080, 167140, 173420, 179920, 186650, 192590, 199380, 206350, 213500, 220830,
    228340, 236020, 243880, 251920, 260130, 268520, 277070, 285790, 294670, 303710, 312900, 322240, 331730,
    341350, 351110, 361000, 371000, 381120, 391340, 401650, 412060, 422540, 433090, 443710, 454370, 465080,
    475820, 486580, 497360, 508130, 518900, 529660, 540380, 551070, 561710, 572290, 582810, 593260, 603620,
    613880, 624050, 634110, 644050, 653880, 663570, 673120, 682540, 691800, 700920, 709880, 718680, 727310,
    735780, 744070, 752200, 760140, 767920, 775510, 782930, 790160, 797220, 804100, 810810, 817330, 823680,
    829850, 835860, 841690, 847350, 852840, 858170, 863340, 868340, 873190]
  len := by decide +kernel

/-- `CES75` (hpp:5158-5198). -/
def CES75 : Table where
  scale := 6
  m := [
    29193, 30018, 30865, 31736, 32631, 33549, 34493, 35463, 36458, 37481, 38531, 39609, 40716, 41853, 43020,
    44218, 45447, 46710, 48005, 49335, 50900, 51980, 53339, 54933, 56720, 58657, 60701, 62810, 64942, 67052,
    69100, 71052, 72915, 74706, 76444, 78145, 79826, 81505, 83198, 84924, 86700, 88539, 90442, 92405, 94426,
    96502, 98630, 100810, 103030, 105290, 107600, 109940, 112320, 114720, 117160, 119620, 122100, 124610,
    127120, 129660, 132200, 134750, 137320, 139900, 142490, 145120, 147760, 150440, 153160, 155910, 158700,
    161540, 164400, 167290, 170180, 173070, 175930, 178760, 181540, 184260, 186900, 189450, 191900, 194230,
    196410, 198430, 200270, 201920, 203350, 204550, 205500, 206190, 206610, 206770, 206690, 206360, 205780,
    204980, 203940, 202680, 201200, 199510, 197620, 195560, 193320, 190940, 188430, 185810, 183080, 180270,
    177400, 174470, 171500, 168490, 165430, 162340, 159220, 156070, 152900, 149710, 146500, 143280, 140050,
    136830, 133610, 130400, 127220, 124060, 120930, 117840, 114800, 111810, 108880, 106020, 103240, 100540,
    97933, 95428, 93032, 90753, 88600, 86578, 84685, 82915, 81265, 79729, 78303, 76982, 75761, 74635, 73600,
    72649, 71773, 70958, 70194, 69468, 68769, 68084, 67402, 66712, 66000, 65258, 64484, 63678, 62841, 61974,
    61076, 60150, 59195, 58211, 57200, 56163, 55105, 54034, 52955, 51875, 50802, 49741, 48699, 47683, 46700,
    45756, 44860, 44021, 43248, 42550, 41937, 41416, 40996, 40688, 40500, 40439, 40505, 40696, 41011, 41448,
    42005, 42680, 43473, 44380, 45400, 46527, 47736, 48997, 50281, 51558, 52798, 53972, 55050, 56003, 56800,
    57419, 57862, 58140, 58260, 58232, 58066, 57770, 57354, 56828, 56200, 55481, 54684, 53824, 52917, 51977,
    51018, 50057, 49106, 48183, 47300, 46471, 45696, 44975, 44305, 43686, 43116, 42594, 42118, 41687, 41300,
    40955, 40650, 40385, 40157, 39965, 39809, 39685, 39594, 39532, 39500, 39495, 39515, 39557, 39620, 39702,
    39799, 39910, 40031, 40162, 40300, 40443, 40594, 40758, 40939, 41140, 41366, 41621, 41909, 42234, 42600,
    43011, 43471, 43982, 44549, 45175, 45862, 46615, 47437, 48331, 49300, 50347, 51469, 52663, 53924, 55249,
    56634, 58075, 59569, 61112, 62700, 64329, 65994, 67691, 69413, 71156, 72914, 74683, 76457, 78231, 80000,
    81761, 83519, 85282, 87058, 88853, 90677, 92536, 94437, 96390, 98400, 100470, 102570, 104660, 106700,
    108670, 110520, 112210, 113710, 114990, 116000, 117660, 119090, 120530, 121990, 123460, 124950, 126450,
    127970, 129510, 131060, 132620, 134200, 135800, 137410, 139040, 140690, 142350, 144030, 145720, 147430,
    149160, 150900, 152660, 154440, 156230, 158050, 159870, 161720, 163580, 165460, 167360, 169270, 171200,
    173150, 175120, 177100, 179110, 181130, 183160, 185220, 187290, 189380, 191490, 193620, 195760, 197920,
    200100, 202300, 204520, 206750, 209000, 211270, 213560, 215870, 218190, 220530, 222890, 225270, 227660,
    230080, 232510, 234960, 237430, 239910, 242410, 244930, 247470, 250030, 252600, 255190, 257800, 260420,
    263070, 265730, 268400, 271100, 273810, 276540, 279280]
  len := by decide +kernel

end CS.Data.TM30
