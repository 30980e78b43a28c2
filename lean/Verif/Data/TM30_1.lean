import Verif.Data.Table

/-! IES TM-30-15 colour evaluation samples.  Generated by `tools/gen_data.py`. -/

namespace CS.Data.TM30

/-- `CES01` (hpp:2124-2164). -/
def CES01 : Table where
  scale := 6
  m := [
    619470, 620290, 621110, 621930, 622750, 623570, 624390, 625210, 626020, 626840, 627660, 628470, 629280,
    630100, 630910, 631720, 632530, 633340, 634150, 634960, 635900, 636500, 637260, 638140, 639110, 640150,
    641230, 642330, 643400, 644440, 645400, 646270, 647040, 647730, 648340, 648880, 649350, 649760, 650110,
    650430, 650700, 650940, 651140, 651300, 651410, 651470, 651470, 651410, 651280, 651080, 650800, 650440,
    650000, 649480, 648890, 648230, 647510, 646720, 645870, 644960, 644000, 642990, 641910, 640770, 639550,
    638250, 636850, 635340, 633720, 631980, 630100, 628090, 625950, 623710, 621370, 618950, 616480, 613960,
    611410, 608850, 606300, 603760, 601230, 598710, 596170, 593610, 591030, 588410, 585730, 583000, 580200,
    577330, 574390, 571430, 568450, 565480, 562530, 559640, 556830, 554100, 551500, 549030, 546670, 544420,
    542260, 540160, 538100, 536080, 534070, 532050, 530000, 527920, 525800, 523670, 521540, 519420, 517330,
    515280, 513280, 511350, 509500, 507750, 506090, 504510, 503030, 501630, 500320, 499080, 497910, 496820,
    495800, 494850, 493960, 493140, 492390, 491710, 491100, 490570, 490100, 489710, 489400, 489160, 488990,
    488890, 488840, 488840, 488890, 488970, 489090, 489240, 489400, 489580, 489790, 490030, 490320, 490680,
    491110, 491620, 492230, 492960, 493800, 494780, 495890, 497150, 498550, 500110, 501820, 503690, 505720,
    507920, 510300, 512850, 515580, 518500, 521600, 524880, 528360, 532020, 535880, 539940, 544200, 548660,
    553310, 558140, 563150, 568320, 573640, 579110, 584720, 590450, 596300, 602250, 608300, 614410, 620580,
    626790, 633020, 639260, 645470, 651660, 657800, 663880, 669880, 675810, 681660, 687430, 693120, 698710,
    704210, 709600, 714900, 720090, 725170, 730140, 734990, 739740, 744360, 748880, 753270, 757550, 761700,
    765730, 769650, 773450, 777140, 780720, 784210, 787590, 790880, 794080, 797200, 800230, 803190, 806060,
    808850, 811560, 814190, 816730, 819200, 821590, 823900, 826130, 828280, 830350, 832350, 834270, 836120,
    837900, 839600, 841240, 842800, 844300, 845730, 847110, 848430, 849710, 850950, 852150, 853320, 854470,
    855600, 856710, 857810, 858890, 859950, 860980, 861990, 862970, 863910, 864830, 865700, 866540, 867340,
    868100, 868840, 869550, 870230, 870900, 871540, 872180, 872800, 873410, 874020, 874620, 875200, 875780,
    876350, 876910, 877450, 877980, 878500, 879010, 879500, 879990, 880460, 880940, 881410, 881880, 882350,
    882820, 883300, 883790, 884280, 884780, 885280, 885790, 886310, 886830, 887350, 887870, 888400, 888930,
    889450, 889960, 890450, 890910, 891350, 891740, 892080, 892370, 892600, 892960, 893270, 893580, 893890,
    894200, 894510, 894810, 895120, 895420, 895730, 896030, 896330, 896630, 896930, 897230, 897530, 897830,
    898130, 898430, 898720, 899020, 899310, 899610, 899900, 900190, 900480, 900770, 901060, 901350, 901640,
    901930, 902220, 902500, 902790, 903070, 903360, 903640, 903920, 904200, 904490, 904770, 905050, 905320,
    905600, 905880, 906160, 906430, 906710, 906980, 907260, 907530, 907800, 908070, 908340, 908610, 908880,
    909150, 909420, 909690, 909950, 910220, 910480, 910750, 911010, 911280, 911540, 911800, 912060, 912320,
    912580, 912840, 913100, 913350, 913610, 913870, 914120, 914380, 914630, 914880]
  len := by decide +kernel

/-- `CES02` (hpp:2165-2205). -/
def CES02 : Table where
  scale := 6
  m := [
    251730, 252210, 252690, 253170, 253650, 254130, 254610, 255100, 255580, 256060, 256550, 257030, 257520,
    258000, 258490, 258980, 259470, 259960, 260440, 260930, 261500, 261870, 262340, 262870, 263460, 264090,
    264720, 265350, 265950, 266510, 267000, 267410, 267740, 268010, 268200, 268340, 268430, 268470, 268480,
    268450, 268400, 268330, 268240, 268120, 267970, 267790, 267580, 267330, 267030, 266690, 266300, 265860,
    265360, 264800, 264180, 263490, 262740, 261920, 261020, 260050, 259000, 257870, 256650, 255340, 253930,
    252410, 250790, 249050, 247200, 245210, 243100, 240850, 238490, 236020, 233470, 230860, 228210, 225520,
    222830, 220150, 217500, 214890, 212320, 209770, 207240, 204710, 202180, 199630, 197060, 194450, 191800,
    189100, 186360, 183600, 180850, 178130, 175450, 172830, 170310, 167890, 165600, 163450, 161440, 159530,
    157730, 156020, 154360, 152760, 151200, 149650, 148100, 146540, 144970, 143400, 141830, 140260, 138710,
    137170, 135650, 134160, 132700, 131280, 129890, 128560, 127270, 126040, 124870, 123770, 122740, 121780,
    120900, 120100, 119390, 118750, 118180, 117690, 117250, 116880, 116570, 116310, 116100, 115940, 115810,
    115730, 115690, 115690, 115710, 115770, 115850, 115970, 116100, 116260, 116430, 116630, 116850, 117100,
    117370, 117660, 117980, 118330, 118700, 119100, 119540, 120020, 120550, 121140, 121790, 122520, 123320,
    124210, 125200, 126290, 127490, 128830, 130320, 131980, 133810, 135850, 138100, 140570, 143300, 146290,
    149540, 153060, 156850, 160920, 165270, 169890, 174810, 180010, 185500, 191280, 197350, 203670, 210250,
    217070, 224110, 231360, 238800, 246420, 254200, 262130, 270200, 278390, 286680, 295050, 303490, 311980,
    320510, 329050, 337600, 346130, 354640, 363120, 371540, 379910, 388210, 396430, 404560, 412580, 420500,
    428290, 435970, 443520, 450960, 458280, 465480, 472570, 479560, 486430, 493200, 499860, 506410, 512840,
    519150, 525330, 531360, 537260, 543000, 548580, 554000, 559250, 564340, 569270, 574070, 578720, 583250,
    587670, 591970, 596180, 600300, 604340, 608290, 612160, 615940, 619630, 623240, 626750, 630160, 633480,
    636700, 639820, 642850, 645800, 648680, 651510, 654280, 657020, 659720, 662420, 665100, 667790, 670470,
    673160, 675830, 678500, 681160, 683800, 686420, 689020, 691600, 694150, 696680, 699200, 701710, 704220,
    706750, 709290, 711860, 714460, 717100, 719780, 722490, 725200, 727880, 730500, 733060, 735510, 737830,
    740000, 742000, 743810, 745450, 746960, 748390, 749760, 751110, 752490, 753920, 755440, 757100, 758910,
    760840, 762840, 764850, 766840, 768750, 770530, 772130, 773500, 774600, 776280, 777720, 779160, 780590,
    782010, 783430, 784840, 786240, 787640, 789030, 790410, 791780, 793150, 794520, 795870, 797220, 798570,
    799900, 801230, 802560, 803870, 805180, 806480, 807780, 809070, 810350, 811630, 812900, 814160, 815420,
    816670, 817910, 819150, 820380, 821610, 822820, 824030, 825240, 826440, 827630, 828810, 829990, 831160,
    832330, 833490, 834640, 835790, 836930, 838060, 839190, 840310, 841420, 842530, 843630, 844730, 845820,
    846900, 847980, 849050, 850110, 851170, 852220, 853270, 854310, 855340, 856370, 857390, 858400, 859410,
    860420, 861410, 862400, 863390, 864370, 865340, 866310, 867270, 868230, 869180]
  len := by decide +kernel

/-- `CES03` (hpp:2206-2246). -/
def CES03 : Table where
  scale := 6
  m := [
    8, 641, 1980, 3848, 5605, 6630, 8000, 9467, 11731, 14499, 16937, 19039, 20151, 19922, 18672, 17729,
    17524, 16769, 15711, 13973, 11674, 9649, 8111, 6818, 5726, 5109, 4350, 3574, 3147, 3359, 3785, 4424,
    5293, 6272, 7368, 8737, 10293, 12035, 14144, 16532, 18883, 21246, 23596, 25631, 27417, 29720, 32465,
    35204, 37738, 40150, 41988, 43189, 44156, 45524, 47211, 48964, 50410, 51750, 52855, 53792, 54566, 55445,
    56440, 57083, 57070, 56742, 56205, 55547, 54937, 54413, 54100, 53902, 53774, 53765, 54203, 54871, 55664,
    56679, 57649, 58413, 59081, 59649, 60026, 60341, 60549, 60752, 61032, 61311, 61645, 62179, 62592, 62958,
    63186, 63270, 63130, 63044, 62775, 62329, 61926, 61441, 60687, 60151, 59726, 59534, 59488, 59669, 59799,
    59946, 59870, 59691, 59439, 58867, 58073, 57351, 56628, 56008, 55706, 55466, 55030, 54521, 53919, 53180,
    52790, 52549, 52383, 52021, 51481, 50688, 49959, 49342, 48948, 48681, 48467, 48208, 47985, 47624, 47382,
    47261, 47091, 46776, 46471, 46118, 45696, 45187, 44646, 43976, 43331, 42642, 41988, 41440, 41024, 40629,
    40410, 40326, 40347, 40464, 40826, 41158, 41509, 41707, 41868, 41924, 41975, 41805, 41803, 41972, 42084,
    41975, 41883, 41602, 41234, 40886, 40741, 40890, 41396, 41849, 42197, 42496, 42671, 42718, 43051, 43563,
    44035, 44529, 44840, 44837, 44615, 44444, 44162, 44104, 44294, 44551, 44879, 45463, 45961, 46315, 46699,
    47125, 47595, 48351, 49141, 49935, 50704, 51166, 51322, 51510, 51805, 52008, 52446, 52802, 53052, 53202,
    53442, 53637, 54138, 54632, 55210, 55836, 56751, 57576, 58628, 59789, 61282, 62793, 64374, 66035, 67686,
    69226, 70720, 72334, 74268, 76501, 78768, 80920, 83096, 85163, 87222, 89622, 92294, 95102, 97902,
    100340, 102350, 104610, 107020, 109280, 111990, 114760, 117120, 118960, 120640, 122030, 123520, 125020,
    126390, 127490, 128650, 129480, 130400, 131630, 133220, 134750, 136320, 137750, 139260, 140940, 142940,
    145140, 147240, 148850, 150030, 151240, 152320, 153510, 155000, 156560, 157590, 158540, 159530, 160630,
    162070, 163850, 165440, 167210, 169080, 170950, 172770, 175020, 176930, 178480, 180040, 181510, 182910,
    184390, 185700, 186640, 187150, 187270, 186890, 186660, 186110, 185490, 185230, 185170, 185460, 186500,
    188170, 189730, 191670, 193570, 195290, 197300, 199360, 200970, 202330, 202100, 202700, 203930, 203930,
    203930, 203930, 208280, 209520, 210770, 212020, 213280, 214550, 215820, 217090, 218370, 219660, 220950,
    222250, 223550, 224850, 226170, 227490, 228810, 230140, 231470, 232810, 234160, 235510, 236870, 238230,
    239590, 240970, 242340, 243730, 245110, 246510, 247910, 249310, 250720, 252140, 253560, 254980, 256410,
    257850, 259290, 260730, 262190, 263640, 265100, 266570, 268040, 269520, 271000, 272490, 273980, 275480,
    276980, 278490, 280010, 281520, 283050, 284570, 286110, 287640, 289190, 290740, 292290, 293840, 295410,
    296970, 298550, 300120, 301700, 303290, 304880, 306480, 308080, 309680, 311290, 312900, 314520, 316140,
    317770, 319400, 321040]
  len := by decide +kernel

/-- `CES04` (hpp:2247-2287). -/
def CES04 : Table where
  scale := 6
  m := [
    473760, 477183, 478810, 478934, 478504, 477931, 476276, 473907, 471000, 467751, 464059, 459961, 455314,
    450429, 445506, 441016, 436857, 432851, 428936, 425136, 421566, 418564, 415470, 412248, 408937, 405590,
    402245, 398946, 395730, 392583, 389496, 386511, 383638, 380829, 378146, 375665, 373356, 371153, 369062,
    367027, 365006, 363034, 361127, 359287, 357609, 356108, 354693, 353333, 352038, 350730, 349358, 347942,
    346500, 345023, 343520, 342000, 340440, 338850, 337233, 335564, 333824, 332017, 330128, 328158, 326140,
    324106, 322044, 319922, 317701, 315345, 312822, 310134, 307317, 304392, 301351, 298162, 294796, 291244,
    287533, 283708, 279821, 275935, 272075, 268214, 264330, 260421, 256480, 252518, 248569, 244652, 240781,
    236962, 233183, 229433, 225723, 222057, 218439, 214887, 211401, 207976, 204617, 201324, 198093, 194935,
    191851, 188837, 185896, 183029, 180233, 177517, 174885, 172343, 169907, 167590, 165405, 163365, 161482,
    159759, 158203, 156816, 155600, 154554, 153674, 152946, 152357, 151895, 151556, 151335, 151241, 151273,
    151434, 151720, 152130, 152662, 153323, 154120, 155063, 156156, 157403, 158803, 160363, 162086, 163980,
    166052, 168308, 170750, 173384, 176209, 179227, 182445, 185858, 189457, 193242, 197200, 201315, 205585,
    210003, 214554, 219231, 224024, 228918, 233907, 238994, 244167, 249425, 254772, 260204, 265718, 271317,
    276989, 282721, 288507, 294333, 300190, 306085, 312023, 317996, 323994, 330007, 336013, 342003, 347965,
    353876, 359718, 365485, 371163, 376734, 382193, 387538, 392750, 397823, 402754, 407546, 412215, 416779,
    421226, 425540, 429721, 433757, 437633, 441361, 444956, 448415, 451736, 454918, 457955, 460847, 463605,
    466222, 468701, 471052, 473280, 475385, 477382, 479278, 481066, 482744, 484313, 485775, 487139, 488420,
    489630, 490766, 491845, 492880, 493864, 494797, 495698, 496569, 497412, 498244, 499075, 499901, 500730,
    501532, 502290, 503011, 503712, 504383, 505033, 505666, 506266, 506813, 507310, 507764, 508194, 508609,
    509017, 509406, 509769, 510089, 510375, 510639, 510897, 511155, 511424, 511687, 511936, 512168, 512390,
    512617, 512870, 513141, 513432, 513730, 514023, 514293, 514551, 514792, 515017, 515219, 515394, 515528,
    515617, 515658, 515662, 515634, 515581, 515502, 515400, 515266, 515089, 514861, 514610, 514354, 514104,
    513878, 513688, 513511, 513351, 513222, 513151, 513144, 513201, 513300, 513426, 513472, 513449, 513422,
    513398, 513368, 513380, 513358, 513302, 513217, 513114, 513005, 512908, 512815, 512719, 512615, 512505,
    512387, 512273, 512171, 512082, 512008, 511955, 511919, 511902, 511913, 511965, 512084, 512288, 512568,
    512910, 513293, 513685, 514067, 514454, 514850, 515251, 515648, 516024, 516361, 516666, 516938, 517270,
    517667, 518073, 518488, 518912, 519287, 519661, 520036, 520410, 520785, 521159, 521534, 521908, 522282,
    522657, 523031, 523405, 523780, 524154, 524528, 524902, 525276, 525650, 526024, 526398, 526772, 527146,
    527520, 527894, 528268, 528642, 529016, 529390, 529763, 530137, 530511, 530884, 531258, 531632, 532005,
    532379, 532752, 533126, 533499, 533873, 534246, 534620, 534993, 535367, 535740, 536113, 536487, 536860,
    537233, 537606, 537979, 538352, 538725, 539098, 539471, 539844, 540216, 540590]
  len := by decide +kernel

/-- `CES05` (hpp:2288-2328). -/
def CES05 : Table where
  scale := 6
  m := [
    133510, 134070, 134530, 134900, 135190, 135400, 135540, 135630, 135670, 135680, 135650, 135600, 135550,
    135490, 135440, 135400, 135390, 135420, 135490, 135610, 135790, 136040, 136350, 136720, 137120, 137570,
    138040, 138530, 139020, 139520, 140010, 140480, 140920, 141320, 141670, 141950, 142150, 142260, 142270,
    142170, 141940, 141570, 141080, 140460, 139720, 138870, 137930, 136890, 135760, 134550, 133270, 131920,
    130520, 129050, 127530, 125950, 124330, 122660, 120940, 119180, 117380, 115550, 113680, 111790, 109870,
    107940, 106000, 104040, 102090, 100140, 98190, 96254, 94332, 92427, 90541, 88677, 86838, 85025, 83243,
    81494, 79780, 78104, 76468, 74874, 73325, 71823, 70368, 68965, 67614, 66319, 65080, 63900, 62779, 61715,
    60710, 59762, 58870, 58034, 57254, 56530, 55860, 55244, 54677, 54156, 53675, 53231, 52819, 52434, 52073,
    51729, 51400, 51081, 50772, 50473, 50185, 49907, 49640, 49385, 49141, 48910, 48690, 48483, 48292, 48118,
    47964, 47834, 47728, 47650, 47603, 47589, 47610, 47669, 47768, 47906, 48087, 48310, 48577, 48890, 49249,
    49655, 50110, 50614, 51162, 51750, 52373, 53024, 53700, 54395, 55103, 55820, 56540, 57259, 57974, 58685,
    59387, 60081, 60764, 61434, 62090, 62729, 63350, 63952, 64541, 65121, 65699, 66281, 66873, 67481, 68111,
    68769, 69460, 70192, 70976, 71825, 72750, 73763, 74878, 76105, 77458, 78949, 80590, 82390, 84350, 86465,
    88734, 91152, 93718, 96428, 99278, 102270, 105390, 108640, 112000, 115440, 118940, 122470, 126010,
    129540, 133020, 136430, 139760, 142970, 146080, 149060, 151940, 154710, 157370, 159930, 162380, 164730,
    166980, 169140, 171240, 173330, 175440, 177630, 179940, 182410, 185070, 187980, 191180, 194710, 198590,
    202850, 207520, 212630, 218190, 224240, 230810, 237910, 245570, 253810, 262630, 271980, 281850, 292210,
    303050, 314330, 326040, 338150, 350630, 363460, 376590, 389970, 403540, 417260, 431060, 444900, 458730,
    472490, 486130, 499600, 512880, 525960, 538800, 551400, 563740, 575790, 587540, 598970, 610070, 620820,
    631220, 641290, 651050, 660510, 669670, 678560, 687190, 695560, 703700, 711610, 719300, 726770, 734020,
    741050, 747870, 754470, 760870, 767050, 773030, 778800, 784370, 789750, 794940, 799950, 804790, 809450,
    813950, 818290, 822480, 826520, 830420, 834190, 837820, 841330, 844710, 847980, 851130, 854180, 857120,
    859970, 862720, 865390, 867980, 870500, 872950, 875340, 877680, 879970, 882220, 884440, 886620, 888760,
    890860, 892920, 894940, 896920, 898850, 900730, 902560, 904340, 906070, 907740, 909360, 910910, 912410,
    913850, 915220, 916520, 917760, 918930, 920030, 921080, 922080, 923040, 923950, 924840, 925700, 926540,
    927370, 928190, 929020, 929850, 930690, 931560, 932450, 933370, 934330, 935330, 936390, 936740, 937530,
    938310, 939080, 939850, 940600, 941350, 942080, 942810, 943530, 944240, 944940, 945640, 946330, 947000,
    947670, 948330, 948990, 949630, 950270, 950900, 951530, 952140, 952750, 953350, 953940, 954530, 955110,
    955680, 956250, 956810, 957360, 957900, 958440, 958970, 959500, 960010, 960530, 961030, 961530, 962030,
    962510, 963000, 963470, 963940, 964400, 964860, 965310, 965760]
  len := by decide +kernel

/-- `CES06` (hpp:2329-2369). -/
def CES06 : Table where
  scale := 6
  m := [
    45250, 46774, 48347, 49969, 51643, 53370, 55151, 56989, 58883, 60837, 62851, 64927, 67066, 69271, 71543,
    73884, 76295, 78778, 81334, 83966, 82492, 87222, 91715, 95975, 100010, 103820, 107400, 110780, 113940,
    116900, 119650, 122200, 124560, 126740, 128720, 130530, 132160, 133610, 134900, 136030, 136990, 137810,
    138480, 139010, 139430, 139750, 139970, 140110, 140170, 140180, 140150, 140080, 139970, 139840, 139660,
    139460, 139210, 138940, 138620, 138270, 137880, 137460, 136990, 136500, 135970, 135410, 134820, 134190,
    133540, 132870, 132170, 131440, 130690, 129930, 129140, 128350, 127540, 126730, 125920, 125100, 124280,
    123470, 122650, 121840, 121030, 120210, 119390, 118560, 117720, 116870, 116000, 115120, 114230, 113340,
    112450, 111570, 110690, 109840, 109000, 108200, 107430, 106690, 106000, 105340, 104720, 104130, 103580,
    103070, 102580, 102130, 101710, 101320, 100960, 100620, 100290, 99987, 99693, 99406, 99124, 98842,
    98557, 98267, 97973, 97681, 97393, 97115, 96849, 96600, 96372, 96169, 95995, 95852, 95744, 95670, 95631,
    95629, 95663, 95736, 95848, 95999, 96192, 96425, 96700, 97016, 97372, 97768, 98203, 98678, 99191, 99742,
    100330, 100960, 101620, 102330, 103080, 103880, 104720, 105620, 106560, 107560, 108610, 109720, 110890,
    112110, 113390, 114720, 116110, 117560, 119050, 120610, 122210, 123870, 125580, 127350, 129160, 131040,
    132960, 134950, 136990, 139080, 141230, 143440, 145700, 148010, 150360, 152750, 155180, 157640, 160130,
    162650, 165180, 167730, 170290, 172850, 175410, 177960, 180490, 183000, 185470, 187920, 190310, 192660,
    194960, 197220, 199420, 201570, 203680, 205730, 207740, 209690, 211600, 213460, 215270, 217010, 218690,
    220300, 221830, 223280, 224640, 225910, 227080, 228140, 229100, 229960, 230720, 231390, 231950, 232420,
    232800, 233090, 233280, 233390, 233430, 233400, 233310, 233180, 233020, 232840, 232650, 232470, 232300,
    232160, 232060, 232010, 232040, 232150, 232370, 232700, 233170, 233790, 234570, 235520, 236670, 238010,
    239560, 241320, 243310, 245530, 247990, 250710, 253690, 256930, 260460, 264290, 268420, 272870, 277640,
    282770, 288240, 294080, 300300, 306910, 313890, 321240, 328920, 336950, 345280, 353930, 362850, 372060,
    381510, 391210, 401110, 411150, 421290, 431490, 441700, 451870, 461940, 471890, 481650, 491190, 500510,
    509610, 518510, 527200, 535700, 544010, 552140, 560100, 567890, 575520, 582980, 590270, 597380, 604300,
    611030, 617560, 623890, 630000, 635890, 641560, 646990, 652180, 657120, 661810, 666240, 670410, 674300,
    677910, 681230, 689250, 693970, 698640, 703270, 707860, 712410, 716920, 721380, 725800, 730170, 734510,
    738790, 743040, 747230, 751380, 755490, 759550, 763560, 767530, 771450, 775320, 779140, 782920, 786660,
    790340, 793980, 797570, 801110, 804610, 808060, 811470, 814820, 818130, 821400, 824620, 827790, 830920,
    834000, 837040, 840030, 842980, 845880, 848740, 851550, 854330, 857050, 859740, 862380, 864980, 867540,
    870060, 872540, 874980, 877380, 879730, 882050, 884330, 886570, 888780, 890940, 893070, 895160, 897220,
    899240, 901220, 903170, 905090, 906970, 908820, 910630, 912410, 914160, 915880, 917570, 919230, 920850,
    922450, 924010, 925550]
  len := by decide +kernel

/-- `CES07` (hpp:2370-2410). -/
def CES07 : Table where
  scale := 6
  m := [
    60013, 59927, 59841, 59755, 59670, 59584, 59499, 59413, 59328, 59243, 59158, 59073, 58988, 58903, 58819,
    58734, 58650, 58566, 58482, 58398, 58300, 58238, 58159, 58068, 57967, 57858, 57745, 57630, 57515, 57404,
    57300, 57204, 57118, 57042, 56976, 56919, 56874, 56839, 56814, 56802, 56800, 56810, 56830, 56859, 56896,
    56939, 56987, 57038, 57092, 57146, 57200, 57252, 57302, 57350, 57395, 57437, 57477, 57513, 57545, 57575,
    57600, 57621, 57636, 57643, 57640, 57625, 57596, 57551, 57488, 57405, 57300, 57172, 57022, 56852, 56665,
    56463, 56248, 56022, 55787, 55546, 55300, 55052, 54803, 54554, 54306, 54060, 53817, 53579, 53346, 53119,
    52900, 52689, 52487, 52292, 52104, 51923, 51748, 51579, 51415, 51255, 51100, 50949, 50801, 50658, 50519,
    50385, 50257, 50134, 50016, 49905, 49800, 49702, 49609, 49522, 49440, 49361, 49285, 49212, 49141, 49070,
    49000, 48930, 48860, 48791, 48724, 48659, 48598, 48541, 48488, 48441, 48400, 48366, 48337, 48314, 48295,
    48278, 48263, 48249, 48234, 48218, 48200, 48179, 48154, 48127, 48098, 48067, 48035, 48002, 47968, 47934,
    47900, 47867, 47835, 47805, 47777, 47753, 47732, 47716, 47705, 47699, 47700, 47707, 47721, 47741, 47766,
    47796, 47830, 47868, 47910, 47954, 48000, 48048, 48100, 48156, 48218, 48288, 48366, 48455, 48556, 48671,
    48800, 48946, 49109, 49293, 49499, 49729, 49984, 50267, 50579, 50923, 51300, 51713, 52170, 52681, 53254,
    53897, 54621, 55435, 56346, 57365, 58500, 59761, 61163, 62720, 64446, 66357, 68467, 70792, 73346, 76144,
    79200, 82530, 86152, 90082, 94338, 98938, 103900, 109240, 114970, 121120, 127700, 134720, 142170,
    150020, 158250, 166830, 175750, 184980, 194500, 204280, 214300, 224540, 234950, 245490, 256110, 266770,
    277410, 288010, 298500, 308850, 319000, 328920, 338580, 347970, 357050, 365800, 374220, 382260, 389930,
    397180, 404000, 410380, 416320, 421850, 426980, 431720, 436100, 440130, 443830, 447210, 450300, 453110,
    455650, 457950, 460020, 461880, 463540, 465030, 466360, 467540, 468600, 469550, 470390, 471130, 471770,
    472300, 472750, 473090, 473350, 473520, 473600, 473600, 473520, 473380, 473190, 472960, 472690, 472400,
    472100, 471790, 471500, 471220, 470970, 470730, 470500, 470300, 470110, 469940, 469780, 469630, 469500,
    469380, 469270, 469160, 469040, 468910, 468770, 468600, 468400, 468170, 467900, 467580, 467230, 466850,
    466460, 466070, 465690, 465330, 465010, 464730, 464500, 464160, 463860, 463560, 463260, 462970, 462670,
    462370, 462070, 461780, 461480, 461180, 460880, 460580, 460290, 459990, 459690, 459390, 459100, 458800,
    458500, 458210, 457910, 457610, 457310, 457020, 456720, 456420, 456120, 455830, 455530, 455230, 454940,
    454640, 454340, 454040, 453750, 453450, 453150, 452860, 452560, 452260, 451970, 451670, 451370, 451080,
    450780, 450480, 450190, 449890, 449590, 449300, 449000, 448710, 448410, 448110, 447820, 447520, 447220,
    446930, 446630, 446340, 446040, 445740, 445450, 445150, 444860, 444560, 444270, 443970, 443670, 443380,
    443080, 442790, 442490, 442200, 441900, 441610, 441310, 441010]
  len := by decide +kernel

/-- `CES08` (hpp:2411-2451). -/
def CES08 : Table where
  scale := 6
  m := [
    58180, 58588, 58930, 59212, 59437, 59610, 59734, 59815, 59857, 59864, 59840, 59790, 59717, 59627, 59523,
    59410, 59293, 59175, 59060, 58954, 58860, 58782, 58717, 58664, 58619, 58579, 58541, 58504, 58463, 58416,
    58360, 58293, 58218, 58138, 58055, 57973, 57896, 57826, 57766, 57719, 57690, 57679, 57686, 57705, 57735,
    57772, 57813, 57855, 57893, 57926, 57950, 57962, 57963, 57952, 57932, 57902, 57864, 57818, 57764, 57705,
    57640, 57570, 57498, 57425, 57354, 57286, 57223, 57169, 57123, 57090, 57070, 57065, 57073, 57091, 57116,
    57145, 57176, 57204, 57228, 57244, 57250, 57243, 57224, 57195, 57158, 57113, 57064, 57012, 56957, 56903,
    56850, 56800, 56754, 56710, 56669, 56631, 56595, 56561, 56529, 56499, 56470, 56443, 56415, 56388, 56358,
    56326, 56290, 56250, 56204, 56151, 56090, 56021, 55945, 55864, 55779, 55692, 55605, 55520, 55438, 55361,
    55290, 55227, 55173, 55125, 55085, 55051, 55023, 55000, 54982, 54969, 54960, 54954, 54951, 54950, 54949,
    54948, 54946, 54942, 54936, 54925, 54910, 54889, 54864, 54835, 54803, 54768, 54732, 54695, 54659, 54623,
    54590, 54559, 54531, 54506, 54483, 54464, 54447, 54433, 54423, 54415, 54410, 54408, 54409, 54412, 54416,
    54421, 54426, 54431, 54436, 54439, 54440, 54439, 54437, 54436, 54438, 54443, 54453, 54471, 54497, 54532,
    54580, 54640, 54714, 54799, 54896, 55005, 55126, 55257, 55398, 55549, 55710, 55881, 56070, 56283, 56530,
    56818, 57154, 57548, 58006, 58538, 59150, 59852, 60654, 61570, 62611, 63788, 65116, 66604, 68267, 70114,
    72160, 74415, 76892, 79602, 82557, 85769, 89248, 93007, 97058, 101410, 106080, 111070, 116380, 122010,
    127940, 134170, 140700, 147510, 154610, 161980, 169620, 177520, 185660, 194010, 202570, 211300, 220180,
    229200, 238330, 247550, 256840, 266180, 275540, 284920, 294300, 303660, 312980, 322250, 331460, 340570,
    349590, 358490, 367260, 375880, 384350, 392660, 400780, 408720, 416450, 423960, 431250, 438300, 445110,
    451690, 458050, 464170, 470080, 475780, 481260, 486530, 491600, 496470, 501150, 505630, 509930, 514060,
    518010, 521800, 525420, 528880, 532200, 535370, 538400, 541310, 544090, 546760, 549320, 551790, 554170,
    556470, 558700, 560860, 562970, 565020, 567020, 568970, 570870, 572730, 574560, 576360, 578120, 579860,
    581570, 583270, 584950, 586620, 588270, 589910, 591550, 593190, 594830, 596470, 598110, 599750, 601390,
    603030, 604660, 606280, 607890, 609500, 611090, 612670, 614230, 615770, 617290, 618780, 620240, 621670,
    623070, 624420, 625740, 627010, 628240, 629440, 630600, 631730, 632840, 633930, 634990, 636050, 637090,
    638130, 639160, 640200, 641240, 642280, 643350, 644420, 645520, 646640, 647790, 648670, 649720, 650770,
    651810, 652850, 653890, 654930, 655970, 657000, 658040, 659070, 660100, 661130, 662160, 663190, 664210,
    665240, 666260, 667280, 668300, 669320, 670330, 671350, 672360, 673370, 674380, 675390, 676390, 677400,
    678400, 679400, 680400, 681400, 682400, 683390, 684390, 685380, 686370, 687350, 688340, 689330, 690310,
    691290, 692270, 693250, 694220, 695200, 696170, 697140]
  len := by decide +kernel

/-- `CES09` (hpp:2452-2492). -/
def CES09 : Table where
  scale := 6
  m := [
    41573, 41603, 41633, 41663, 41693, 41723, 41753, 41783, 41813, 41843, 41873, 41903, 41933, 41964, 41994,
    42024, 42054, 42085, 42115, 42145, 42249, 42248, 42252, 42261, 42274, 42292, 42314, 42342, 42375, 42413,
    42455, 42503, 42556, 42615, 42679, 42748, 42822, 42902, 42988, 43080, 43177, 43279, 43388, 43501, 43619,
    43742, 43869, 44000, 44134, 44272, 44413, 44557, 44703, 44852, 45003, 45157, 45313, 45471, 45631, 45794,
    45959, 46126, 46294, 46465, 46638, 46812, 46989, 47167, 47346, 47528, 47711, 47895, 48079, 48262, 48441,
    48616, 48784, 48944, 49094, 49233, 49359, 49472, 49571, 49659, 49737, 49806, 49869, 49926, 49980, 50031,
    50081, 50132, 50189, 50256, 50339, 50441, 50568, 50725, 50916, 51146, 51420, 51742, 52106, 52507, 52939,
    53397, 53873, 54363, 54860, 55358, 55851, 56334, 56801, 57245, 57662, 58045, 58388, 58686, 58934, 59124,
    59252, 59313, 59312, 59253, 59143, 58987, 58790, 58557, 58296, 58010, 57706, 57389, 57060, 56721, 56374,
    56020, 55661, 55298, 54933, 54567, 54203, 53840, 53479, 53119, 52760, 52402, 52043, 51684, 51323, 50961,
    50596, 50229, 49858, 49483, 49103, 48717, 48325, 47926, 47520, 47104, 46680, 46246, 45805, 45358, 44907,
    44455, 44004, 43556, 43112, 42676, 42249, 41834, 41435, 41056, 40702, 40378, 40089, 39838, 39630, 39471,
    39364, 39313, 39315, 39367, 39465, 39604, 39783, 39996, 40240, 40512, 40807, 41122, 41457, 41811, 42185,
    42578, 42990, 43421, 43870, 44339, 44825, 45330, 45851, 46387, 46936, 47495, 48063, 48639, 49220, 49804,
    50390, 50975, 51556, 52128, 52687, 53230, 53751, 54247, 54714, 55147, 55542, 55897, 56212, 56492, 56739,
    56957, 57148, 57315, 57462, 57591, 57706, 57810, 57903, 57987, 58064, 58134, 58199, 58260, 58317, 58373,
    58428, 58483, 58538, 58593, 58648, 58701, 58754, 58804, 58853, 58899, 58943, 58984, 59025, 59068, 59116,
    59172, 59238, 59318, 59414, 59528, 59664, 59823, 60004, 60204, 60421, 60651, 60894, 61146, 61404, 61667,
    61931, 62195, 62456, 62712, 62961, 63201, 63431, 63647, 63849, 64033, 64198, 64343, 64468, 64574, 64664,
    64738, 64797, 64844, 64879, 64904, 64919, 64928, 64929, 64923, 64911, 64892, 64867, 64836, 64800, 64759,
    64713, 64663, 64608, 64548, 64483, 64413, 64339, 64260, 64176, 64086, 63992, 63893, 63788, 63678, 63563,
    63442, 63316, 63184, 63047, 62904, 62756, 62728, 62617, 62505, 62394, 62283, 62173, 62062, 61952, 61842,
    61732, 61622, 61512, 61403, 61294, 61184, 61076, 60967, 60858, 60750, 60642, 60534, 60426, 60318, 60211,
    60104, 59997, 59890, 59783, 59676, 59570, 59464, 59358, 59252, 59146, 59041, 58936, 58830, 58725, 58621,
    58516, 58412, 58307, 58203, 58099, 57996, 57892, 57789, 57686, 57582, 57480, 57377, 57274, 57172, 57070,
    56968, 56866, 56764, 56663, 56562, 56460, 56359, 56259, 56158, 56057, 55957, 55857, 55757, 55657, 55558,
    55458, 55359, 55260, 55161, 55062, 54963, 54865, 54767, 54668, 54570]
  len := by decide +kernel

/-- `CES10` (hpp:2493-2533). -/
def CES10 : Table where
  scale := 6
  m := [
    176020, 177150, 178280, 179420, 180570, 181720, 182870, 184040, 185200, 186380, 187560, 188740, 189930,
    191130, 192330, 193540, 194760, 195970, 197200, 198430, 199830, 200810, 202010, 203370, 204810, 206280,
    207690, 208990, 210110, 210970, 211520, 211690, 211520, 211060, 210350, 209440, 208380, 207200, 205970,
    204730, 203520, 202380, 201310, 200320, 199380, 198500, 197670, 196890, 196140, 195420, 194730, 194050,
    193390, 192750, 192120, 191490, 190880, 190260, 189650, 189030, 188420, 187790, 187170, 186540, 185910,
    185290, 184670, 184060, 183460, 182880, 182310, 181750, 181220, 180710, 180230, 179780, 179350, 178970,
    178620, 178300, 178040, 177810, 177620, 177460, 177320, 177180, 177050, 176910, 176760, 176580, 176370,
    176110, 175810, 175470, 175090, 174670, 174200, 173690, 173140, 172550, 171920, 171250, 170550, 169820,
    169080, 168340, 167600, 166880, 166170, 165510, 164880, 164300, 163780, 163300, 162880, 162500, 162170,
    161890, 161660, 161480, 161350, 161260, 161210, 161190, 161190, 161200, 161210, 161220, 161210, 161180,
    161110, 161000, 160870, 160730, 160590, 160470, 160390, 160360, 160400, 160530, 160750, 161090, 161550,
    162110, 162790, 163570, 164460, 165460, 166550, 167750, 169040, 170430, 171920, 173490, 175150, 176890,
    178710, 180610, 182580, 184630, 186730, 188910, 191160, 193500, 195940, 198500, 201200, 204030, 207030,
    210190, 213550, 217100, 220850, 224820, 229020, 233450, 238120, 243040, 248220, 253660, 259380, 265390,
    271740, 278490, 285700, 293410, 301680, 310580, 320160, 330470, 341570, 353500, 366210, 379620, 393680,
    408300, 423420, 438960, 454870, 471070, 487490, 504060, 520710, 537390, 554010, 570530, 586860, 602950,
    618720, 634120, 649080, 663530, 677460, 690850, 703690, 715960, 727650, 738740, 749220, 759080, 768300,
    776870, 784800, 792140, 798890, 805080, 810730, 815880, 820540, 824730, 828490, 831830, 834800, 837430,
    839770, 841850, 843710, 845400, 846950, 848400, 849790, 851150, 852490, 853810, 855100, 856370, 857600,
    858800, 859960, 861090, 862170, 863210, 864210, 865170, 866080, 866950, 867770, 868550, 869290, 869990,
    870640, 871250, 871820, 872360, 872870, 873370, 873850, 874320, 874790, 875270, 875750, 876240, 876750,
    877250, 877750, 878220, 878680, 879100, 879490, 879820, 880110, 880330, 880490, 880610, 880690, 880740,
    880760, 880760, 880760, 880750, 880750, 880760, 880780, 880810, 880840, 880860, 880880, 880890, 880890,
    880870, 880830, 880770, 880690, 880600, 880510, 880440, 880380, 880350, 880350, 880400, 880500, 880660,
    880870, 881110, 881380, 881670, 881960, 882240, 882500, 882720, 882910, 883180, 883410, 883650, 883890,
    884120, 884360, 884590, 884830, 885060, 885290, 885520, 885760, 885990, 886220, 886450, 886680, 886910,
    887140, 887370, 887600, 887830, 888060, 888290, 888510, 888740, 888970, 889190, 889420, 889640, 889870,
    890090, 890320, 890540, 890770, 890990, 891210, 891430, 891660, 891880, 892100, 892320, 892540, 892760,
    892980, 893200, 893420, 893630, 893850, 894070, 894290, 894500, 894720, 894940, 895150, 895370, 895580,
    895800, 896010, 896220, 896440, 896650, 896860, 897070, 897290, 897500, 897710, 897920, 898130, 898340,
    898550, 898760, 898960, 899170, 899380, 899590, 899800, 900000, 900210, 900410]
  len := by decide +kernel

/-- `CES11` (hpp:2534-2574). -/
def CES11 : Table where
  scale := 6
  m := [
    39511, 40462, 41434, 42429, 43447, 44489, 45554, 46643, 47757, 48896, 50061, 51253, 52471, 53716, 54989,
    56291, 57621, 58981, 60371, 61792, 60810, 63415, 65866, 68166, 70318, 72327, 74195, 75925, 77521, 78986,
    80324, 81538, 82630, 83606, 84466, 85217, 85859, 86397, 86835, 87175, 87420, 87576, 87650, 87652, 87591,
    87477, 87319, 87126, 86908, 86675, 86435, 86195, 85956, 85711, 85459, 85196, 84917, 84619, 84299, 83953,
    83576, 83168, 82726, 82251, 81745, 81206, 80637, 80037, 79407, 78747, 78057, 77339, 76595, 75826, 75036,
    74227, 73400, 72560, 71707, 70845, 69976, 69101, 68221, 67335, 66442, 65542, 64633, 63717, 62791, 61855,
    60908, 59952, 58989, 58027, 57069, 56123, 55192, 54284, 53402, 52553, 51742, 50974, 50249, 49566, 48925,
    48326, 47767, 47248, 46769, 46329, 45928, 45563, 45233, 44933, 44660, 44410, 44178, 43961, 43756, 43559,
    43365, 43172, 42981, 42793, 42609, 42432, 42262, 42101, 41951, 41814, 41690, 41581, 41488, 41412, 41352,
    41311, 41288, 41284, 41300, 41337, 41394, 41473, 41577, 41709, 41871, 42067, 42300, 42573, 42889, 43250,
    43661, 44125, 44656, 45268, 45974, 46791, 47732, 48811, 50043, 51442, 53024, 54801, 56791, 59008, 61468,
    64186, 67178, 70459, 74046, 77953, 82197, 86789, 91729, 97014, 102640, 108610, 114910, 121540, 128500,
    135790, 143400, 151320, 159530, 167990, 176660, 185520, 194520, 203640, 212830, 222070, 231310, 240540,
    249700, 258770, 267720, 276510, 285120, 293490, 301620, 309450, 316960, 324120, 330930, 337400, 343530,
    349330, 354800, 359950, 364780, 369310, 373530, 377460, 381100, 384480, 387610, 390510, 393180, 395660,
    397940, 400060, 402010, 403830, 405520, 407100, 408570, 409960, 411270, 412510, 413710, 414870, 416010,
    417140, 418260, 419390, 420540, 421720, 422930, 424190, 425500, 426880, 428330, 429860, 431480, 433180,
    434960, 436840, 438800, 440850, 442990, 445220, 447550, 449960, 452470, 455050, 457710, 460450, 463240,
    466090, 469000, 471950, 474950, 477980, 481060, 484190, 487390, 490660, 494030, 497490, 501050, 504740,
    508550, 512510, 516590, 520810, 525150, 529620, 534210, 538920, 543740, 548660, 553690, 558820, 564030,
    569280, 574550, 579820, 585050, 590230, 595320, 600300, 605140, 609820, 614360, 618760, 623060, 627260,
    631390, 635460, 639490, 643510, 647520, 651550, 655580, 659600, 663620, 667600, 671550, 675450, 679290,
    683060, 686750, 690340, 693840, 697220, 700480, 703600, 706580, 709400, 712050, 714520, 716810, 721660,
    724740, 727800, 730850, 733860, 736860, 739840, 742790, 745720, 748630, 751520, 754390, 757230, 760050,
    762850, 765620, 768370, 771100, 773810, 776500, 779160, 781800, 784410, 787010, 789580, 792120, 794650,
    797150, 799630, 802090, 804520, 806930, 809320, 811690, 814030, 816350, 818650, 820920, 823180, 825410,
    827620, 829800, 831970, 834110, 836230, 838330, 840410, 842460, 844490, 846510, 848500, 850470, 852410,
    854340, 856250, 858130, 860000, 861840, 863670, 865470, 867250, 869020, 870760, 872480, 874190, 875870,
    877540, 879180, 880810, 882420, 884010, 885580, 887130, 888660, 890180, 891670, 893150, 894610, 896060]
  len := by decide +kernel

/-- `CES12` (hpp:2575-2615). -/
def CES12 : Table where
  scale := 6
  m := [
    241670, 237160, 232670, 227810, 222130, 216220, 210720, 204830, 198910, 192980, 186870, 180780, 175420,
    170620, 166080, 162040, 158330, 154020, 150850, 148150, 145140, 142150, 139490, 136460, 133080, 129810,
    126550, 123400, 120610, 118020, 115360, 113190, 111050, 108840, 107070, 105840, 105190, 104970, 104900,
    104720, 104300, 103830, 102810, 101450, 99815, 98708, 97967, 96978, 95877, 95158, 94833, 94687, 94808,
    95574, 96729, 97671, 98137, 98167, 98439, 98831, 98292, 97482, 96940, 96416, 95543, 94735, 95001, 95409,
    95288, 94672, 93947, 93808, 93406, 92917, 92431, 91913, 91230, 90197, 88798, 87422, 86025, 84641, 83285,
    82259, 82097, 81328, 80320, 79021, 77459, 76197, 75411, 74464, 73308, 72032, 70652, 68276, 66607, 65116,
    63658, 62596, 61592, 60002, 58833, 58186, 57778, 57188, 56242, 55110, 54417, 54342, 54162, 53723, 53394,
    52825, 51979, 50865, 50007, 49561, 49321, 49053, 48672, 48363, 48595, 49059, 49520, 49948, 50598, 50997,
    51167, 51604, 52351, 53125, 53939, 54441, 54939, 55646, 56306, 56772, 57617, 58880, 59795, 60268, 60745,
    61345, 62326, 63376, 64193, 65223, 67008, 69284, 71189, 73067, 75259, 77662, 80018, 82032, 84366, 87440,
    90541, 93574, 96584, 99907, 103400, 106830, 110170, 113740, 117600, 121370, 125090, 128740, 132500,
    136330, 140610, 145390, 150190, 155160, 160280, 165590, 171190, 176960, 183310, 189980, 196770, 203500,
    210000, 216580, 223300, 230350, 237750, 245500, 253340, 260960, 268430, 275780, 283420, 291350, 299790,
    308750, 316890, 325510, 333920, 342430, 351640, 361310, 370680, 379660, 388760, 398000, 407260, 417390,
    426910, 436060, 445220, 454250, 462800, 471370, 480490, 489300, 497370, 505020, 512600, 520250, 528610,
    535610, 542050, 548740, 555880, 562180, 567910, 574020, 579600, 584770, 589490, 593210, 598320, 603020,
    607080, 610670, 614310, 618260, 622300, 625890, 629400, 632680, 635720, 637690, 639890, 642050, 643840,
    645530, 647590, 649760, 651870, 653790, 655390, 657050, 659020, 660820, 661820, 663880, 666060, 667590,
    668480, 670130, 671120, 672390, 674080, 675780, 677160, 678650, 678830, 678630, 678060, 677150, 675990,
    675620, 675860, 675900, 675440, 675220, 675550, 676060, 676750, 677620, 678220, 678850, 679440, 678950,
    678020, 677900, 678210, 678340, 678110, 677300, 677170, 678430, 679340, 679820, 680560, 681540, 681610,
    681270, 681350, 682300, 683680, 684120, 683410, 683070, 682890, 682770, 682730, 683040, 683700, 683670,
    683630, 683250, 682010, 686530, 683100, 686760, 686760, 685530, 685750, 685960, 686170, 686390, 686600,
    686810, 687030, 687240, 687450, 687660, 687880, 688090, 688300, 688510, 688730, 688940, 689150, 689360,
    689570, 689790, 690000, 690210, 690420, 690630, 690850, 691060, 691270, 691480, 691690, 691900, 692110,
    692320, 692530, 692750, 692960, 693170, 693380, 693590, 693800, 694010, 694220, 694430, 694640, 694850,
    695060, 695270, 695480, 695690, 695900, 696110, 696320, 696530, 696740, 696950, 697150, 697360, 697570,
    697780, 697990, 698200, 698410, 698620, 698820, 699030, 699240, 699450, 699660, 699870, 700070, 700280,
    700490, 700700, 700900, 701110, 701320, 701530, 701730, 701940]
  len := by decide +kernel

/-- `CES13` (hpp:2616-2656). -/
def CES13 : Table where
  scale := 6
  m := [
    43374, 43365, 43356, 43347, 43338, 43329, 43319, 43310, 43301, 43292, 43283, 43274, 43265, 43256, 43247,
    43238, 43229, 43220, 43211, 43202, 43269, 43231, 43196, 43164, 43136, 43112, 43092, 43078, 43069, 43066,
    43070, 43081, 43099, 43125, 43159, 43202, 43255, 43317, 43389, 43472, 43566, 43672, 43788, 43913, 44047,
    44187, 44333, 44485, 44640, 44797, 44956, 45115, 45272, 45426, 45574, 45715, 45847, 45968, 46076, 46169,
    46246, 46305, 46348, 46377, 46397, 46408, 46415, 46419, 46424, 46431, 46444, 46465, 46490, 46515, 46536,
    46549, 46549, 46533, 46497, 46435, 46345, 46224, 46078, 45914, 45741, 45567, 45400, 45247, 45117, 45017,
    44956, 44941, 44983, 45093, 45280, 45555, 45930, 46414, 47018, 47752, 48628, 49650, 50810, 52093, 53485,
    54970, 56536, 58168, 59851, 61572, 63315, 65067, 66815, 68546, 70247, 71905, 73506, 75039, 76490, 77846,
    79094, 80226, 81246, 82164, 82990, 83734, 84403, 85009, 85561, 86067, 86537, 86979, 87391, 87769, 88108,
    88406, 88657, 88857, 89004, 89092, 89118, 89079, 88978, 88821, 88612, 88356, 88057, 87721, 87353, 86957,
    86537, 86099, 85641, 85164, 84665, 84144, 83601, 83033, 82441, 81823, 81178, 80507, 79814, 79106, 78389,
    77668, 76951, 76242, 75549, 74876, 74232, 73619, 73039, 72491, 71974, 71486, 71028, 70598, 70195, 69819,
    69468, 69143, 68847, 68587, 68367, 68192, 68068, 67999, 67991, 68049, 68178, 68388, 68710, 69178, 69827,
    70693, 71810, 73213, 74938, 77019, 79491, 82379, 85660, 89302, 93272, 97538, 102070, 106830, 111790,
    116910, 122160, 127520, 132950, 138410, 143880, 149330, 154730, 160040, 165230, 170280, 175160, 179830,
    184310, 188610, 192750, 196720, 200560, 204270, 207860, 211350, 214760, 218080, 221310, 224450, 227470,
    230370, 233120, 235730, 238180, 240460, 242540, 244440, 246140, 247680, 249060, 250300, 251410, 252400,
    253300, 254110, 254850, 255530, 256160, 256740, 257290, 257810, 258310, 258790, 259260, 259730, 260210,
    260690, 261180, 261680, 262170, 262660, 263140, 263610, 264050, 264480, 264870, 265240, 265570, 265880,
    266160, 266410, 266640, 266850, 267040, 267200, 267350, 267490, 267600, 267700, 267780, 267850, 267900,
    267940, 267960, 267960, 267950, 267920, 267880, 267830, 267770, 267700, 267630, 267560, 267480, 267420,
    267350, 267300, 267250, 267200, 267170, 267130, 267100, 267060, 267030, 266990, 266960, 266910, 266870,
    266810, 266750, 266680, 266600, 266510, 266410, 266290, 266160, 266230, 266170, 266110, 266040, 265980,
    265920, 265850, 265790, 265730, 265660, 265600, 265540, 265470, 265410, 265350, 265280, 265220, 265160,
    265090, 265030, 264970, 264900, 264840, 264780, 264710, 264650, 264590, 264520, 264460, 264400, 264330,
    264270, 264210, 264140, 264080, 264020, 263950, 263890, 263830, 263760, 263700, 263640, 263570, 263510,
    263450, 263380, 263320, 263260, 263190, 263130, 263070, 263010, 262940, 262880, 262820, 262750, 262690,
    262630, 262560, 262500, 262440, 262380, 262310, 262250, 262190, 262120, 262060, 262000, 261940, 261870,
    261810, 261750, 261680, 261620, 261560, 261500, 261430, 261370, 261310]
  len := by decide +kernel

/-- `CES14` (hpp:2657-2697). -/
def CES14 : Table where
  scale := 6
  m := [
    335320, 335620, 335920, 336220, 336530, 336830, 337130, 337430, 337730, 338030, 338330, 338630, 338930,
    339240, 339540, 339840, 340140, 340440, 340750, 341050, 341400, 341630, 341910, 342240, 342610, 343010,
    343430, 343850, 344280, 344700, 345100, 345470, 345820, 346150, 346460, 346760, 347050, 347340, 347620,
    347910, 348200, 348500, 348810, 349120, 349440, 349760, 350080, 350400, 350710, 351010, 351300, 351580,
    351850, 352110, 352370, 352610, 352860, 353090, 353330, 353560, 353800, 354040, 354270, 354510, 354750,
    354990, 355240, 355480, 355720, 355960, 356200, 356440, 356680, 356910, 357150, 357380, 357610, 357840,
    358060, 358280, 358500, 358710, 358920, 359130, 359340, 359550, 359770, 359990, 360220, 360450, 360700,
    360960, 361220, 361490, 361770, 362050, 362330, 362610, 362880, 363140, 363400, 363650, 363880, 364110,
    364330, 364540, 364760, 364970, 365180, 365390, 365600, 365820, 366040, 366270, 366510, 366760, 367020,
    367300, 367580, 367880, 368200, 368540, 368890, 369270, 369670, 370090, 370550, 371040, 371550, 372110,
    372700, 373330, 374000, 374710, 375460, 376250, 377080, 377950, 378860, 379810, 380800, 381830, 382890,
    383970, 385060, 386140, 387210, 388250, 389250, 390210, 391100, 391930, 392680, 393370, 394000, 394570,
    395080, 395530, 395940, 396290, 396600, 396860, 397090, 397270, 397420, 397530, 397600, 397640, 397660,
    397640, 397600, 397540, 397460, 397380, 397320, 397280, 397280, 397330, 397440, 397630, 397900, 398270,
    398760, 399370, 400120, 401030, 402100, 403340, 404790, 406430, 408300, 410390, 412690, 415170, 417810,
    420580, 423450, 426410, 429420, 432460, 435500, 438520, 441510, 444440, 447310, 450090, 452770, 455340,
    457780, 460070, 462200, 464160, 465950, 467580, 469070, 470430, 471670, 472790, 473810, 474750, 475600,
    476390, 477110, 477770, 478390, 478950, 479470, 479950, 480390, 480810, 481200, 481570, 481920, 482250,
    482570, 482860, 483140, 483410, 483650, 483880, 484100, 484300, 484490, 484670, 484830, 484980, 485130,
    485260, 485380, 485490, 485600, 485700, 485790, 485890, 485980, 486070, 486180, 486290, 486410, 486550,
    486700, 486870, 487060, 487260, 487470, 487680, 487890, 488110, 488310, 488510, 488700, 488870, 489030,
    489170, 489300, 489410, 489510, 489600, 489680, 489740, 489800, 489850, 489890, 489920, 489960, 489990,
    490030, 490080, 490140, 490210, 490300, 490410, 490530, 490670, 490820, 490980, 491160, 491340, 491520,
    491710, 491900, 492090, 492280, 492460, 492650, 492830, 493010, 493190, 493360, 493530, 493700, 493860,
    494020, 494170, 494310, 494440, 494560, 494670, 494760, 494840, 494900, 495000, 495090, 495170, 495260,
    495340, 495430, 495510, 495600, 495680, 495770, 495850, 495940, 496020, 496110, 496190, 496280, 496360,
    496450, 496530, 496620, 496700, 496790, 496870, 496960, 497040, 497130, 497210, 497300, 497380, 497470,
    497550, 497640, 497720, 497810, 497890, 497980, 498060, 498150, 498230, 498320, 498400, 498490, 498570,
    498660, 498740, 498830, 498910, 499000, 499080, 499170, 499250, 499340, 499420, 499510, 499590, 499680,
    499760, 499850, 499930, 500020, 500100, 500190, 500270, 500360, 500440, 500530, 500610, 500700, 500780,
    500870, 500950, 501040, 501120, 501210, 501290, 501380, 501460, 501550, 501630]
  len := by decide +kernel

/-- `CES15` (hpp:2698-2738). -/
def CES15 : Table where
  scale := 6
  m := [
    169920, 170520, 171130, 171730, 172340, 172950, 173560, 174170, 174790, 175400, 176020, 176640, 177260,
    177880, 178510, 179130, 179760, 180390, 181020, 181660, 181410, 182510, 183490, 184390, 185200, 185930,
    186600, 187210, 187780, 188320, 188830, 189330, 189820, 190320, 190830, 191370, 191940, 192560, 193240,
    193970, 194790, 195690, 196680, 197770, 198970, 200290, 201730, 203310, 205020, 206880, 208900, 211070,
    213390, 215830, 218390, 221030, 223740, 226500, 229300, 232110, 234920, 237700, 240460, 243190, 245870,
    248510, 251100, 253630, 256100, 258510, 260830, 263080, 265250, 267350, 269380, 271350, 273240, 275080,
    276860, 278590, 280270, 281900, 283490, 285030, 286530, 287990, 289420, 290810, 292170, 293500, 294800,
    296070, 297320, 298540, 299750, 300930, 302100, 303250, 304380, 305500, 306600, 307700, 308790, 309880,
    310980, 312080, 313210, 314360, 315530, 316740, 318000, 319290, 320620, 321980, 323370, 324760, 326170,
    327570, 328960, 330340, 331680, 333000, 334270, 335480, 336620, 337670, 338620, 339460, 340180, 340760,
    341190, 341460, 341570, 341530, 341330, 340980, 340490, 339850, 339070, 338160, 337120, 335950, 334670,
    333310, 331880, 330410, 328910, 327410, 325930, 324490, 323120, 321820, 320610, 319490, 318470, 317560,
    316760, 316070, 315500, 315060, 314760, 314580, 314540, 314620, 314820, 315130, 315540, 316050, 316650,
    317340, 318100, 318930, 319800, 320690, 321570, 322410, 323180, 323870, 324430, 324850, 325100, 325160,
    325050, 324810, 324480, 324070, 323640, 323210, 322820, 322500, 322280, 322200, 322330, 322710, 323410,
    324490, 326020, 328050, 330630, 333850, 337750, 342370, 347660, 353540, 359960, 366820, 374050, 381580,
    389350, 397260, 405250, 413260, 421230, 429130, 436920, 444570, 452030, 459280, 466280, 472970, 479340,
    485360, 491020, 496360, 501390, 506140, 510630, 514880, 518900, 522720, 526370, 529850, 533180, 536360,
    539390, 542270, 545020, 547630, 550110, 552460, 554690, 556800, 558790, 560680, 562480, 564190, 565820,
    567380, 568880, 570320, 571720, 573080, 574410, 575710, 576970, 578200, 579400, 580580, 581730, 582850,
    583950, 585030, 586080, 587120, 588130, 589110, 590070, 591010, 591920, 592810, 593670, 594500, 595310,
    596110, 596880, 597650, 598420, 599180, 599950, 600720, 601500, 602310, 603120, 603950, 604790, 605630,
    606490, 607350, 608220, 609100, 609970, 610840, 611720, 612590, 613450, 614310, 615160, 616000, 616830,
    617640, 618430, 619210, 619970, 620710, 621440, 622140, 622820, 623480, 624120, 624740, 625330, 625900,
    626450, 626980, 627470, 627950, 628400, 628820, 629220, 629590, 629930, 630810, 631320, 631830, 632330,
    632840, 633340, 633850, 634350, 634860, 635360, 635870, 636370, 636870, 637380, 637880, 638380, 638880,
    639380, 639890, 640390, 640890, 641390, 641890, 642390, 642890, 643390, 643890, 644390, 644890, 645380,
    645880, 646380, 646880, 647370, 647870, 648370, 648860, 649360, 649850, 650350, 650840, 651340, 651830,
    652320, 652820, 653310, 653800, 654300, 654790, 655280, 655770, 656260, 656750, 657240, 657730, 658220,
    658710, 659200, 659690, 660180, 660670, 661150, 661640, 662130, 662620, 663100, 663590, 664070, 664560,
    665040, 665530, 666010, 666500, 666980, 667460, 667950, 668430, 668910, 669390]
  len := by decide +kernel

/-- `CES16` (hpp:2739-2779). -/
def CES16 : Table where
  scale := 6
  m := [
    34659, 34799, 34941, 35082, 35224, 35367, 35510, 35654, 35799, 35943, 36089, 36235, 36382, 36529, 36677,
    36825, 36974, 37124, 37274, 37424, 37670, 37778, 37895, 38020, 38153, 38294, 38442, 38597, 38759, 38926,
    39099, 39277, 39460, 39647, 39837, 40031, 40229, 40428, 40630, 40834, 41039, 41245, 41454, 41668, 41890,
    42121, 42363, 42619, 42890, 43180, 43489, 43819, 44169, 44536, 44917, 45310, 45713, 46123, 46537, 46953,
    47368, 47781, 48193, 48605, 49020, 49438, 49863, 50295, 50737, 51190, 51656, 52136, 52631, 53138, 53657,
    54187, 54727, 55275, 55832, 56395, 56964, 57538, 58118, 58702, 59293, 59891, 60495, 61106, 61725, 62352,
    62987, 63631, 64284, 64944, 65610, 66284, 66963, 67647, 68336, 69029, 69725, 70424, 71124, 71825, 72526,
    73226, 73923, 74616, 75306, 75990, 76667, 77337, 78001, 78659, 79313, 79963, 80611, 81258, 81904, 82551,
    83200, 83852, 84505, 85161, 85816, 86473, 87128, 87783, 88436, 89086, 89734, 90377, 91016, 91648, 92271,
    92885, 93488, 94078, 94654, 95214, 95757, 96282, 96791, 97285, 97768, 98242, 98709, 99172, 99632,
    100090, 100560, 101020, 101490, 101970, 102450, 102930, 103410, 103900, 104380, 104870, 105350, 105840,
    106320, 106810, 107290, 107770, 108250, 108730, 109200, 109680, 110150, 110620, 111090, 111560, 112030,
    112500, 112970, 113440, 113910, 114380, 114850, 115320, 115800, 116290, 116790, 117300, 117840, 118400,
    118990, 119600, 120260, 120950, 121680, 122460, 123280, 124150, 125070, 126050, 127090, 128180, 129340,
    130570, 131860, 133230, 134680, 136220, 137830, 139550, 141350, 143260, 145270, 147390, 149610, 151950,
    154400, 156960, 159620, 162400, 165290, 168290, 171400, 174630, 177960, 181390, 184910, 188520, 192210,
    195970, 199800, 203700, 207640, 211640, 215690, 219780, 223920, 228100, 232330, 236610, 240930, 245290,
    249700, 254150, 258640, 263150, 267680, 272230, 276770, 281310, 285840, 290350, 294830, 299270, 303670,
    308050, 312380, 316690, 320970, 325220, 329440, 333630, 337800, 341950, 346080, 350200, 354300, 358410,
    362510, 366620, 370750, 374890, 379050, 383230, 387430, 391640, 395840, 400030, 404190, 408320, 412400,
    416430, 420390, 424280, 428090, 431840, 435530, 439170, 442760, 446300, 449810, 453290, 456730, 460160,
    463570, 466960, 470340, 473710, 477060, 480410, 483750, 487090, 490420, 493760, 497090, 500410, 503730,
    507030, 510310, 513570, 516810, 520020, 523190, 526330, 529430, 532490, 535500, 538460, 541370, 544220,
    547010, 549730, 552390, 556110, 559100, 562080, 565060, 568040, 571010, 573970, 576930, 579890, 582830,
    585780, 588710, 591640, 594570, 597480, 600390, 603290, 606190, 609080, 611960, 614830, 617700, 620550,
    623400, 626240, 629070, 631890, 634710, 637510, 640300, 643090, 645870, 648630, 651390, 654130, 656870,
    659590, 662310, 665010, 667700, 670390, 673060, 675720, 678370, 681000, 683630, 686240, 688850, 691440,
    694010, 696580, 699140, 701680, 704210, 706720, 709230, 711720, 714200, 716660, 719120, 721560, 723990,
    726400, 728800, 731190, 733560, 735920, 738270, 740600, 742920, 745230, 747520, 749800, 752070, 754320,
    756560, 758780, 760990, 763190]
  len := by decide +kernel

/-- `CES17` (hpp:2780-2820). -/
def CES17 : Table where
  scale := 6
  m := [
    30798, 31245, 31698, 32158, 32624, 33096, 33576, 34062, 34554, 35054, 35560, 36074, 36595, 37123, 37658,
    38201, 38751, 39308, 39874, 40447, 40310, 41225, 42094, 42917, 43696, 44432, 45126, 45779, 46393, 46967,
    47505, 48005, 48470, 48902, 49299, 49665, 50000, 50305, 50582, 50830, 51053, 51250, 51426, 51584, 51729,
    51864, 51993, 52120, 52250, 52385, 52531, 52690, 52862, 53048, 53247, 53458, 53682, 53919, 54167, 54428,
    54699, 54982, 55276, 55582, 55899, 56228, 56569, 56921, 57285, 57662, 58050, 58451, 58863, 59286, 59719,
    60161, 60612, 61070, 61536, 62008, 62485, 62967, 63453, 63941, 64430, 64919, 65407, 65891, 66371, 66846,
    67315, 67775, 68227, 68669, 69102, 69524, 69935, 70334, 70721, 71094, 71454, 71799, 72131, 72451, 72758,
    73055, 73342, 73620, 73891, 74154, 74411, 74662, 74907, 75144, 75372, 75590, 75796, 75990, 76169, 76333,
    76480, 76610, 76726, 76829, 76923, 77011, 77096, 77181, 77269, 77363, 77466, 77580, 77707, 77847, 78000,
    78168, 78350, 78548, 78762, 78992, 79240, 79506, 79796, 80113, 80465, 80855, 81290, 81774, 82313, 82912,
    83576, 84312, 85126, 86024, 87015, 88106, 89303, 90615, 92047, 93608, 95305, 97142, 99116, 101220,
    103450, 105800, 108270, 110840, 113520, 116290, 119160, 122100, 125120, 128210, 131330, 134500, 137680,
    140880, 144070, 147250, 150400, 153510, 156570, 159580, 162530, 165410, 168220, 170950, 173590, 176140,
    178590, 180930, 183170, 185300, 187340, 189280, 191130, 192880, 194540, 196120, 197610, 199010, 200350,
    201610, 202810, 203960, 205060, 206120, 207150, 208150, 209140, 210110, 211070, 212000, 212920, 213810,
    214670, 215490, 216270, 217020, 217710, 218360, 218950, 219500, 219980, 220410, 220790, 221100, 221350,
    221530, 221660, 221710, 221710, 221660, 221580, 221460, 221320, 221180, 221030, 220890, 220770, 220670,
    220620, 220620, 220680, 220810, 221030, 221350, 221790, 222340, 223030, 223870, 224860, 226010, 227330,
    228810, 230480, 232320, 234350, 236580, 239000, 241630, 244480, 247570, 250910, 254510, 258390, 262570,
    267070, 271880, 277040, 282560, 288420, 294620, 301150, 308000, 315160, 322620, 330370, 338410, 346720,
    355300, 364090, 373060, 382170, 391380, 400630, 409890, 419120, 428270, 437300, 446170, 454890, 463450,
    471880, 480160, 488320, 496360, 504270, 512080, 519790, 527400, 534900, 542280, 549540, 556660, 563620,
    570430, 577060, 583510, 589770, 595820, 601650, 607260, 612630, 617750, 622610, 627200, 631510, 635530,
    639240, 647780, 652950, 658080, 663180, 668230, 673250, 678230, 683170, 688070, 692920, 697740, 702510,
    707240, 711920, 716560, 721150, 725700, 730200, 734650, 739050, 743410, 747720, 751990, 756200, 760370,
    764480, 768550, 772570, 776530, 780450, 784320, 788140, 791910, 795630, 799300, 802920, 806490, 810010,
    813490, 816910, 820280, 823610, 826890, 830110, 833300, 836430, 839510, 842550, 845540, 848490, 851390,
    854240, 857040, 859810, 862520, 865200, 867820, 870410, 872950, 875450, 877910, 880320, 882690, 885030,
    887320, 889570, 891780, 893960, 896090, 898190, 900250, 902270, 904260, 906210, 908120, 910000, 911840,
    913650, 915430]
  len := by decide +kernel

/-- `CES18` (hpp:2821-2861). -/
def CES18 : Table where
  scale := 6
  m := [
    64984, 65366, 65750, 66136, 66524, 66915, 67307, 67702, 68099, 68497, 68899, 69302, 69707, 70115, 70525,
    70937, 71351, 71767, 72186, 72607, 73100, 73417, 73816, 74285, 74812, 75384, 75989, 76616, 77251, 77883,
    78500, 79092, 79662, 80215, 80758, 81296, 81833, 82377, 82932, 83505, 84100, 84723, 85375, 86058, 86773,
    87521, 88304, 89121, 89976, 90868, 91800, 92771, 93777, 94813, 95875, 96957, 98055, 99163, 100280,
    101390, 102500, 103600, 104690, 105770, 106840, 107890, 108920, 109940, 110950, 111930, 112900, 113850,
    114770, 115690, 116580, 117470, 118350, 119220, 120080, 120940, 121800, 122660, 123520, 124380, 125250,
    126110, 126970, 127830, 128690, 129550, 130400, 131250, 132100, 132950, 133810, 134660, 135520, 136380,
    137250, 138120, 139000, 139890, 140790, 141700, 142620, 143550, 144490, 145450, 146420, 147400, 148400,
    149410, 150440, 151480, 152530, 153590, 154660, 155740, 156820, 157910, 159000, 160090, 161180, 162250,
    163300, 164330, 165320, 166270, 167170, 168020, 168800, 169510, 170150, 170720, 171230, 171660, 172020,
    172320, 172550, 172710, 172800, 172830, 172800, 172720, 172600, 172460, 172290, 172110, 171930, 171760,
    171600, 171470, 171370, 171310, 171290, 171320, 171420, 171570, 171800, 172110, 172500, 172980, 173540,
    174170, 174850, 175590, 176360, 177160, 177970, 178790, 179600, 180400, 181170, 181910, 182620, 183290,
    183910, 184480, 184990, 185430, 185800, 186100, 186330, 186530, 186690, 186850, 187020, 187210, 187440,
    187730, 188100, 188560, 189130, 189840, 190690, 191700, 192900, 194300, 195920, 197780, 199900, 202280,
    204920, 207780, 210850, 214090, 217500, 221030, 224680, 228410, 232200, 236030, 239890, 243740, 247590,
    251400, 255170, 258870, 262480, 266000, 269400, 272670, 275810, 278820, 281720, 284500, 287170, 289750,
    292220, 294600, 296900, 299110, 301250, 303310, 305290, 307200, 309030, 310800, 312500, 314130, 315700,
    317210, 318650, 320050, 321410, 322720, 324000, 325250, 326480, 327700, 328900, 330100, 331290, 332480,
    333670, 334860, 336050, 337230, 338420, 339610, 340800, 341990, 343190, 344380, 345560, 346740, 347900,
    349050, 350190, 351310, 352400, 353470, 354520, 355550, 356570, 357580, 358580, 359580, 360580, 361590,
    362600, 363630, 364660, 365710, 366770, 367830, 368900, 369970, 371050, 372120, 373200, 374280, 375350,
    376420, 377480, 378530, 379570, 380600, 381620, 382620, 383600, 384560, 385510, 386440, 387370, 388290,
    389220, 390140, 391080, 392030, 393000, 393990, 394980, 395960, 396910, 397830, 398680, 399460, 400150,
    400740, 401200, 401940, 402580, 403210, 403840, 404480, 405110, 405750, 406380, 407020, 407650, 408290,
    408930, 409560, 410200, 410840, 411470, 412110, 412750, 413390, 414030, 414670, 415310, 415950, 416590,
    417230, 417870, 418510, 419150, 419790, 420430, 421070, 421710, 422360, 423000, 423640, 424290, 424930,
    425570, 426220, 426860, 427500, 428150, 428790, 429440, 430080, 430730, 431380, 432020, 432670, 433320,
    433960, 434610, 435260, 435900, 436550, 437200, 437850, 438500, 439140, 439790, 440440, 441090, 441740,
    442390, 443040, 443690, 444340, 444990, 445640, 446290, 446940, 447590, 448240, 448890, 449550, 450200,
    450850, 451500, 452150]
  len := by decide +kernel

/-- `CES19` (hpp:2862-2902). -/
def CES19 : Table where
  scale := 6
  m := [
    109270, 109790, 110320, 110840, 111370, 111900, 112430, 112970, 113500, 114040, 114580, 115130, 115670,
    116220, 116770, 117330, 117880, 118440, 119000, 119560, 120200, 120640, 121190, 121800, 122470, 123160,
    123840, 124480, 125050, 125540, 125900, 126120, 126210, 126190, 126080, 125890, 125650, 125370, 125070,
    124780, 124500, 124260, 124050, 123870, 123720, 123590, 123490, 123400, 123320, 123260, 123200, 123150,
    123090, 123050, 123010, 122980, 122960, 122950, 122950, 122970, 123000, 123050, 123100, 123170, 123250,
    123340, 123430, 123520, 123620, 123710, 123800, 123880, 123960, 124040, 124110, 124170, 124240, 124300,
    124370, 124430, 124500, 124570, 124640, 124710, 124770, 124840, 124900, 124960, 125010, 125060, 125100,
    125130, 125160, 125170, 125180, 125180, 125180, 125170, 125150, 125130, 125100, 125070, 125040, 125010,
    125000, 125010, 125050, 125120, 125230, 125390, 125600, 125870, 126220, 126680, 127270, 128010, 128920,
    130030, 131370, 132950, 134800, 136930, 139340, 142010, 144920, 148050, 151380, 154900, 158590, 162430,
    166400, 170490, 174640, 178830, 183000, 187110, 191120, 194970, 198630, 202060, 205200, 208030, 210560,
    212810, 214830, 216620, 218230, 219670, 220980, 222180, 223300, 224370, 225430, 226540, 227730, 229050,
    230560, 232290, 234290, 236610, 239300, 242400, 245930, 249920, 254390, 259360, 264850, 270890, 277500,
    284690, 292500, 300920, 309900, 319340, 329160, 339280, 349620, 360080, 370590, 381050, 391400, 401540,
    411440, 421050, 430330, 439250, 447750, 455810, 463380, 470430, 476900, 482780, 488090, 492860, 497150,
    500970, 504380, 507410, 510100, 512480, 514600, 516490, 518160, 519650, 520950, 522100, 523100, 523970,
    524740, 525410, 526000, 526530, 527000, 527420, 527790, 528100, 528370, 528590, 528770, 528900, 529000,
    529060, 529090, 529090, 529070, 529020, 528960, 528880, 528790, 528700, 528600, 528500, 528400, 528300,
    528200, 528100, 527990, 527870, 527760, 527630, 527500, 527360, 527220, 527070, 526910, 526760, 526600,
    526440, 526290, 526140, 526000, 525860, 525730, 525600, 525470, 525340, 525210, 525070, 524920, 524770,
    524600, 524420, 524230, 524020, 523820, 523610, 523400, 523190, 522980, 522790, 522600, 522430, 522260,
    522110, 521960, 521810, 521670, 521530, 521390, 521250, 521100, 520940, 520780, 520620, 520450, 520290,
    520120, 519960, 519800, 519640, 519500, 519360, 519240, 519110, 518990, 518870, 518750, 518620, 518490,
    518350, 518200, 518040, 517860, 517680, 517490, 517290, 517080, 516860, 516650, 516420, 516200, 515980,
    515750, 515530, 515320, 515120, 514940, 514770, 514620, 514500, 514400, 514240, 514110, 513970, 513840,
    513700, 513570, 513430, 513300, 513160, 513030, 512890, 512760, 512620, 512490, 512350, 512220, 512080,
    511950, 511810, 511680, 511540, 511410, 511270, 511140, 511000, 510870, 510730, 510600, 510460, 510330,
    510190, 510050, 509920, 509780, 509650, 509510, 509380, 509240, 509110, 508970, 508840, 508700, 508570,
    508430, 508300, 508160, 508030, 507890, 507760, 507620, 507490, 507350, 507220, 507080, 506950, 506810,
    506680, 506540, 506410, 506270, 506140, 506000, 505870, 505730, 505600, 505460, 505330, 505190, 505060,
    504920, 504790, 504650, 504520, 504380, 504250, 504110, 503980, 503840, 503710]
  len := by decide +kernel

/-- `CES20` (hpp:2903-2943). -/
def CES20 : Table where
  scale := 6
  m := [
    25086, 25460, 25839, 26223, 26613, 27009, 27411, 27818, 28231, 28650, 29075, 29506, 29944, 30387, 30837,
    31294, 31757, 32227, 32703, 33186, 31971, 33232, 34378, 35412, 36332, 37141, 37837, 38423, 38898, 39262,
    39517, 39663, 39700, 39629, 39450, 39164, 38771, 38271, 37667, 36956, 36142, 35226, 34227, 33165, 32061,
    30935, 29810, 28704, 27639, 26637, 25716, 24894, 24164, 23515, 22937, 22420, 21951, 21521, 21119, 20734,
    20354, 19974, 19598, 19235, 18897, 18590, 18326, 18112, 17959, 17876, 17872, 17957, 18143, 18441, 18865,
    19426, 20137, 21010, 22057, 23291, 24723, 26371, 28264, 30439, 32930, 35774, 39004, 42656, 46765, 51367,
    56496, 62177, 68393, 75115, 82313, 89961, 98030, 106490, 115320, 124480, 133940, 143670, 153550, 163470,
    173280, 182880, 192130, 200920, 209110, 216580, 223200, 228890, 233680, 237620, 240770, 243200, 244970,
    246140, 246760, 246910, 246640, 246000, 245050, 243830, 242360, 240700, 238890, 236950, 234940, 232890,
    230850, 228840, 226880, 224950, 223060, 221220, 219400, 217620, 215880, 214160, 212480, 210820, 209200,
    207610, 206060, 204550, 203080, 201650, 200280, 198950, 197690, 196480, 195330, 194260, 193260, 192340,
    191520, 190790, 190170, 189650, 189250, 188970, 188810, 188780, 188890, 189130, 189520, 190040, 190720,
    191540, 192520, 193660, 194950, 196400, 198000, 199740, 201630, 203670, 205840, 208150, 210590, 213170,
    215880, 218700, 221640, 224700, 227860, 231120, 234480, 237940, 241470, 245090, 248810, 252630, 256560,
    260620, 264810, 269150, 273650, 278320, 283170, 288220, 293480, 298970, 304720, 310750, 317080, 323730,
    330730, 338080, 345830, 353970, 362520, 371450, 380770, 390450, 400500, 410900, 421640, 432720, 444120,
    455830, 467800, 479950, 492230, 504580, 516930, 529210, 541370, 553340, 565060, 576470, 587540, 598260,
    608590, 618520, 628010, 637060, 645630, 653710, 661270, 668300, 674820, 680860, 686460, 691660, 696480,
    700960, 705140, 709040, 712700, 716160, 719420, 722500, 725420, 728180, 730810, 733310, 735700, 738000,
    740210, 742340, 744420, 746440, 748410, 750350, 752260, 754150, 756020, 757890, 759770, 761650, 763550,
    765480, 767420, 769390, 771380, 773410, 775480, 777580, 779720, 781910, 784140, 786390, 788680, 790980,
    793290, 795620, 797940, 800260, 802560, 804850, 807120, 809360, 811590, 813790, 815960, 818120, 820240,
    822340, 824400, 826440, 828440, 830410, 832340, 834230, 836080, 837880, 839630, 841330, 842970, 844560,
    846090, 847560, 848960, 850300, 851560, 852760, 853880, 854920, 855880, 858060, 859390, 860710, 862010,
    863310, 864600, 865870, 867140, 868390, 869640, 870880, 872100, 873320, 874520, 875720, 876910, 878080,
    879250, 880410, 881560, 882690, 883820, 884940, 886050, 887150, 888240, 889320, 890400, 891460, 892520,
    893560, 894600, 895630, 896640, 897650, 898660, 899650, 900630, 901610, 902570, 903530, 904480, 905420,
    906360, 907280, 908200, 909110, 910010, 910900, 911780, 912660, 913530, 914390, 915240, 916090, 916930,
    917760, 918580, 919390, 920200, 921000, 921790, 922580, 923360, 924130, 924890, 925650, 926400, 927140,
    927880, 928610, 929330, 930040, 930750, 931460, 932150, 932840, 933520, 934200]
  len := by decide +kernel

/-- `CES21` (hpp:2944-2984). -/
def CES21 : Table where
  scale := 6
  m := [
    123560, 124960, 126380, 127810, 129260, 130710, 132190, 133670, 135170, 136690, 138220, 139760, 141320,
    142890, 144480, 146080, 147690, 149320, 150970, 152630, 148740, 153090, 156940, 160320, 163260, 165780,
    167910, 169690, 171140, 172290, 173160, 173790, 174210, 174430, 174500, 174440, 174270, 174030, 173750,
    173450, 173160, 172910, 172690, 172500, 172340, 172200, 172080, 171970, 171870, 171770, 171670, 171570,
    171470, 171360, 171250, 171140, 171040, 170940, 170850, 170760, 170680, 170610, 170550, 170510, 170480,
    170470, 170470, 170490, 170530, 170590, 170680, 170790, 170920, 171090, 171280, 171500, 171760, 172050,
    172380, 172750, 173160, 173620, 174110, 174650, 175230, 175860, 176530, 177230, 177990, 178780, 179620,
    180490, 181400, 182350, 183320, 184300, 185310, 186320, 187330, 188340, 189350, 190340, 191320, 192300,
    193270, 194250, 195230, 196220, 197220, 198240, 199270, 200340, 201430, 202560, 203750, 204990, 206300,
    207690, 209150, 210720, 212380, 214160, 216070, 218130, 220360, 222780, 225420, 228280, 231410, 234800,
    238490, 242500, 246820, 251460, 256440, 261740, 267380, 273370, 279690, 286370, 293400, 300790, 308510,
    316560, 324900, 333530, 342430, 351570, 360940, 370510, 380280, 390220, 400300, 410520, 420850, 431260,
    441740, 452270, 462830, 473390, 483940, 494450, 504910, 515300, 525590, 535770, 545820, 555720, 565450,
    574990, 584320, 593430, 602330, 611040, 619560, 627910, 636100, 644160, 652090, 659900, 667630, 675260,
    682800, 690240, 697570, 704760, 711830, 718750, 725510, 732100, 738520, 744750, 750800, 756670, 762370,
    767920, 773300, 778540, 783640, 788600, 793430, 798130, 802700, 807130, 811410, 815530, 819470, 823240,
    826810, 830180, 833340, 836280, 839030, 841600, 844010, 846280, 848440, 850510, 852510, 854460, 856380,
    858280, 860170, 862030, 863860, 865650, 867370, 869040, 870630, 872140, 873550, 874870, 876100, 877240,
    878310, 879320, 880280, 881190, 882070, 882930, 883780, 884620, 885460, 886280, 887090, 887890, 888670,
    889430, 890150, 890860, 891520, 892160, 892760, 893340, 893890, 894420, 894930, 895430, 895920, 896400,
    896890, 897370, 897850, 898330, 898810, 899280, 899740, 900190, 900630, 901050, 901450, 901840, 902210,
    902550, 902880, 903190, 903480, 903750, 903990, 904220, 904430, 904620, 904790, 904950, 905090, 905210,
    905330, 905440, 905540, 905630, 905720, 905810, 905900, 905990, 906080, 906170, 906270, 906370, 906480,
    906590, 906720, 906850, 906990, 907140, 907290, 907450, 907620, 907780, 907960, 908130, 908300, 908480,
    908650, 908820, 908990, 909160, 909320, 909470, 909620, 909760, 909890, 910110, 910270, 910440, 910600,
    910760, 910920, 911080, 911250, 911410, 911570, 911730, 911890, 912050, 912210, 912370, 912520, 912680,
    912840, 913000, 913160, 913320, 913470, 913630, 913790, 913940, 914100, 914260, 914410, 914570, 914720,
    914880, 915030, 915190, 915340, 915500, 915650, 915810, 915960, 916110, 916260, 916420, 916570, 916720,
    916870, 917030, 917180, 917330, 917480, 917630, 917780, 917930, 918080, 918230, 918380, 918530, 918680,
    918830, 918970, 919120, 919270, 919420, 919570, 919710, 919860, 920010, 920150, 920300, 920440, 920590,
    920740, 920880, 921030, 921170, 921310, 921460, 921600, 921750, 921890, 922030]
  len := by decide +kernel

/-- `CES22` (hpp:2985-3025). -/
def CES22 : Table where
  scale := 6
  m := [
    123, 2255, 4368, 6464, 8546, 10615, 12673, 14723, 16767, 18807, 20844, 22881, 24921, 26965, 29015,
    31073, 33142, 35224, 37320, 39433, 41565, 43716, 45877, 48039, 50190, 52320, 54418, 56474, 58478, 60419,
    62286, 64071, 65769, 67381, 68903, 70335, 71674, 72919, 74068, 75120, 76073, 76928, 77695, 78389, 79023,
    79611, 80166, 80702, 81233, 81772, 82333, 82927, 83556, 84219, 84915, 85644, 86405, 87197, 88020, 88873,
    89755, 90665, 91602, 92565, 93551, 94558, 95586, 96632, 97695, 98773, 99864, 100970, 102090, 103220,
    104370, 105540, 106730, 107950, 109190, 110470, 111770, 113100, 114470, 115870, 117300, 118770, 120270,
    121800, 123370, 124980, 126620, 128300, 130000, 131740, 133500, 135290, 137090, 138910, 140730, 142560,
    144400, 146240, 148080, 149920, 151780, 153650, 155550, 157460, 159400, 161370, 163370, 165410, 167490,
    169610, 171770, 173970, 176220, 178510, 180860, 183250, 185690, 188190, 190740, 193350, 196020, 198760,
    201570, 204450, 207400, 210440, 213560, 216760, 220050, 223420, 226870, 230390, 233990, 237660, 241390,
    245200, 249060, 252990, 256970, 261030, 265160, 269350, 273630, 277980, 282410, 286930, 291540, 296240,
    301030, 305910, 310880, 315940, 321090, 326330, 331660, 337070, 342580, 348170, 353850, 359600, 365420,
    371310, 377240, 383230, 389260, 395330, 401420, 407540, 413690, 419870, 426080, 432350, 438660, 445020,
    451450, 457940, 464500, 471130, 477820, 484560, 491310, 498080, 504830, 511560, 518240, 524860, 531410,
    537860, 544230, 550500, 556700, 562810, 568860, 574830, 580730, 586570, 592360, 598090, 603760, 609360,
    614890, 620340, 625710, 630990, 636160, 641240, 646200, 651050, 655780, 660400, 664900, 669280, 673540,
    677700, 681730, 685650, 689450, 693140, 696710, 700180, 703550, 706820, 710010, 713110, 716120, 719070,
    721940, 724750, 727490, 730160, 732770, 735310, 737780, 740180, 742510, 744770, 746950, 749060, 751100,
    753080, 755010, 756890, 758720, 760520, 762280, 764030, 765750, 767460, 769150, 770820, 772460, 774070,
    775640, 777150, 778620, 780030, 781370, 782650, 783860, 785020, 786130, 787200, 788240, 789250, 790240,
    791230, 792210, 793200, 794190, 795190, 796200, 797230, 798270, 799320, 800400, 801500, 802620, 803760,
    804930, 806090, 807260, 808420, 809560, 810670, 811750, 812770, 813750, 814670, 815520, 816340, 817110,
    817850, 818560, 819260, 819950, 820640, 821330, 822030, 822750, 823480, 824210, 824950, 825680, 826420,
    827160, 827890, 828620, 829340, 830050, 830760, 831470, 832180, 832900, 833620, 834360, 835100, 835870,
    836650, 837450, 838240, 839020, 839790, 840530, 841240, 841900, 842510, 843050, 843520, 843930, 844290,
    844590, 844860, 845100, 845310, 845500, 845690, 845880, 846080, 846290, 846530, 846810, 847120, 847490,
    847910, 848400, 848960, 849600, 849240, 849540, 849830, 850130, 850430, 850720, 851020, 851310, 851600,
    851900, 852190, 852480, 852770, 853060, 853350, 853640, 853930, 854220, 854510, 854800, 855090, 855380,
    855660, 855950, 856240, 856520, 856810, 857090, 857370, 857660, 857940, 858220, 858510, 858790, 859070,
    859350, 859630, 859910, 860190, 860470, 860750, 861020, 861300, 861580, 861860, 862130, 862410, 862680,
    862960]
  len := by decide +kernel

/-- `CES23` (hpp:3026-3066). -/
def CES23 : Table where
  scale := 6
  m := [
    378530, 383530, 388220, 392610, 396730, 400610, 404260, 407720, 411010, 414150, 417160, 420070, 422880,
    425610, 428250, 430820, 433310, 435750, 438130, 440460, 442740, 444990, 447200, 449380, 451520, 453640,
    455730, 457800, 459850, 461870, 463880, 465870, 467850, 469800, 471740, 473660, 475560, 477440, 479300,
    481130, 482940, 484730, 486490, 488240, 489980, 491710, 493440, 495170, 496910, 498650, 500410, 502190,
    503970, 505770, 507570, 509370, 511160, 512930, 514690, 516430, 518140, 519820, 521470, 523090, 524700,
    526300, 527890, 529480, 531060, 532660, 534270, 535900, 537540, 539200, 540890, 542600, 544330, 546080,
    547870, 549670, 551510, 553370, 555260, 557160, 559080, 560990, 562910, 564810, 566700, 568570, 570410,
    572220, 573990, 575740, 577460, 579150, 580820, 582470, 584100, 585720, 587320, 588910, 590500, 592080,
    593670, 595260, 596880, 598510, 600160, 601850, 603570, 605330, 607130, 608970, 610860, 612780, 614750,
    616750, 618800, 620900, 623030, 625210, 627420, 629670, 631950, 634250, 636570, 638910, 641270, 643630,
    645990, 648350, 650720, 653100, 655490, 657890, 660320, 662780, 665270, 667790, 670360, 672970, 675640,
    678370, 681170, 684060, 687030, 690100, 693270, 696560, 699970, 703510, 707160, 710900, 714700, 718560,
    722440, 726330, 730210, 734050, 737840, 741550, 745180, 748720, 752150, 755480, 758690, 761770, 764720,
    767530, 770190, 772700, 775050, 777270, 779370, 781350, 783220, 785000, 786690, 788310, 789860, 791360,
    792810, 794210, 795570, 796890, 798180, 799450, 800680, 801900, 803100, 804290, 805460, 806600, 807710,
    808790, 809820, 810810, 811740, 812610, 813410, 814140, 814800, 815390, 815920, 816400, 816810, 817180,
    817500, 817770, 818010, 818210, 818380, 818520, 818650, 818760, 818870, 818970, 819080, 819200, 819340,
    819500, 819670, 819870, 820080, 820310, 820560, 820810, 821080, 821350, 821630, 821920, 822210, 822500,
    822800, 823110, 823410, 823720, 824040, 824350, 824670, 824990, 825310, 825650, 826000, 826360, 826740,
    827150, 827580, 828050, 828550, 829090, 829660, 830260, 830880, 831520, 832180, 832840, 833500, 834160,
    834810, 835450, 836080, 836700, 837320, 837940, 838560, 839190, 839820, 840470, 841140, 841820, 842530,
    843240, 843970, 844710, 845450, 846200, 846950, 847700, 848440, 849180, 849910, 850640, 851370, 852090,
    852820, 853540, 854260, 854990, 855720, 856450, 857190, 857930, 858680, 859430, 860190, 860960, 861730,
    862510, 863290, 864080, 864880, 865670, 866460, 867230, 868000, 868740, 869460, 870160, 870820, 871450,
    872050, 872620, 873180, 873730, 874280, 874830, 875390, 875970, 876570, 877200, 877850, 878520, 879180,
    879840, 880480, 881100, 881690, 882220, 882710, 883140, 883510, 883840, 884140, 884410, 884670, 884930,
    885200, 885480, 885790, 886130, 886510, 886900, 887300, 887700, 888100, 888490, 888850, 889170, 889460,
    889700, 889900, 890060, 890190, 890300, 890390, 890470, 890550, 890640, 890740, 890850, 890980, 891120,
    891270, 891410, 891550, 891690, 891810, 891920, 892000, 892060, 892100, 892120, 892130, 892120, 892100,
    892080, 892050, 892020, 892000, 891980, 891970, 891960, 891960, 891960, 891960, 891970, 891980, 891990,
    892000, 892010, 892020, 892030, 892040, 892040, 892040, 892040, 892030, 892020]
  len := by decide +kernel

/-- `CES24` (hpp:3067-3107). -/
def CES24 : Table where
  scale := 6
  m := [
    200260, 202600, 204970, 207360, 209770, 212200, 214650, 217130, 219620, 222130, 224660, 227220, 229790,
    232380, 235000, 237630, 240290, 242960, 245660, 248370, 251500, 253630, 256270, 259300, 262600, 266050,
    269520, 272890, 276050, 278850, 281200, 282990, 284260, 285080, 285510, 285630, 285500, 285180, 284750,
    284260, 283800, 283410, 283090, 282840, 282650, 282490, 282370, 282270, 282180, 282100, 282000, 281890,
    281760, 281620, 281480, 281350, 281230, 281130, 281050, 281010, 281000, 281040, 281120, 281240, 281400,
    281610, 281850, 282130, 282450, 282810, 283200, 283630, 284090, 284580, 285110, 285670, 286270, 286900,
    287570, 288270, 289000, 289770, 290580, 291430, 292340, 293300, 294320, 295400, 296560, 297790, 299100,
    300500, 301980, 303550, 305210, 306950, 308780, 310710, 312710, 314810, 317000, 319280, 321650, 324120,
    326700, 329390, 332200, 335130, 338180, 341370, 344700, 348170, 351780, 355530, 359410, 363430, 367570,
    371840, 376240, 380760, 385400, 390160, 395030, 400030, 405140, 410390, 415770, 421270, 426910, 432690,
    438600, 444660, 450860, 457210, 463710, 470370, 477200, 484190, 491350, 498690, 506200, 513890, 521760,
    529780, 537960, 546260, 554690, 563230, 571870, 580600, 589400, 598260, 607180, 616130, 625110, 634100,
    643090, 652070, 661020, 669940, 678800, 687600, 696320, 704930, 713420, 721760, 729940, 737930, 745720,
    753280, 760600, 767650, 774430, 780940, 787180, 793140, 798820, 804220, 809330, 814160, 818700, 822950,
    826920, 830620, 834070, 837270, 840240, 842980, 845520, 847850, 850000, 851970, 853780, 855430, 856930,
    858300, 859540, 860660, 861670, 862580, 863400, 864140, 864800, 865400, 865920, 866370, 866770, 867100,
    867390, 867620, 867800, 867940, 868040, 868100, 868130, 868120, 868080, 868020, 867930, 867830, 867700,
    867560, 867400, 867240, 867060, 866880, 866690, 866490, 866290, 866100, 865900, 865710, 865510, 865320,
    865130, 864940, 864740, 864540, 864330, 864120, 863900, 863670, 863430, 863180, 862910, 862630, 862340,
    862030, 861700, 861360, 861000, 860620, 860220, 859820, 859400, 858980, 858570, 858160, 857760, 857370,
    857000, 856650, 856320, 856010, 855710, 855430, 855150, 854890, 854620, 854360, 854100, 853840, 853560,
    853280, 852970, 852640, 852270, 851870, 851430, 850940, 850400, 849800, 849160, 848480, 847780, 847080,
    846380, 845700, 845050, 844450, 843900, 843420, 843010, 842660, 842370, 842120, 841930, 841770, 841650,
    841560, 841500, 841460, 841430, 841410, 841380, 841340, 841290, 841200, 841080, 840920, 840700, 840430,
    840110, 839750, 839380, 838990, 838610, 838250, 837920, 837630, 837400, 837050, 836740, 836440, 836130,
    835820, 835520, 835210, 834900, 834590, 834280, 833970, 833660, 833350, 833040, 832730, 832410, 832100,
    831790, 831480, 831160, 830850, 830530, 830220, 829900, 829580, 829270, 828950, 828630, 828310, 828000,
    827680, 827360, 827040, 826720, 826400, 826070, 825750, 825430, 825110, 824780, 824460, 824140, 823810,
    823490, 823160, 822830, 822510, 822180, 821850, 821520, 821200, 820870, 820540, 820210, 819880, 819550,
    819210, 818880, 818550, 818220, 817880, 817550, 817220, 816880, 816550, 816210, 815870, 815540, 815200,
    814860, 814520, 814190, 813850, 813510, 813170, 812830, 812490, 812140, 811800]
  len := by decide +kernel

/-- `CES25` (hpp:3108-3148). -/
def CES25 : Table where
  scale := 6
  m := [
    102810, 100680, 98595, 96582, 94694, 92924, 91152, 89347, 87542, 85757, 84042, 82434, 80878, 79330,
    77787, 76213, 74576, 72926, 71304, 69711, 68141, 66611, 65182, 63954, 63010, 62404, 62137, 62086, 62064,
    61918, 61578, 61078, 60493, 59873, 59228, 58536, 57750, 56884, 56009, 55235, 54642, 54270, 54119, 54210,
    54513, 55016, 55679, 56420, 57135, 57791, 58324, 58714, 58950, 59003, 58809, 58404, 57798, 57046, 56238,
    55429, 54616, 53889, 53318, 52943, 52809, 52897, 53070, 53216, 53276, 53201, 53036, 52882, 52749, 52584,
    52381, 52101, 51730, 51343, 51033, 50820, 50747, 50788, 50871, 50965, 51104, 51275, 51515, 51854, 52262,
    52658, 52996, 53223, 53334, 53340, 53275, 53163, 53005, 52776, 52489, 52176, 51878, 51655, 51578, 51681,
    51963, 52396, 52925, 53494, 54048, 54577, 55098, 55654, 56272, 56967, 57722, 58514, 59328, 60194, 61150,
    62227, 63430, 64750, 66140, 67574, 69053, 70617, 72327, 74253, 76470, 79084, 82176, 85793, 89978, 94738,
    100040, 105890, 112310, 119300, 126910, 135120, 143880, 153160, 162940, 173200, 183910, 195060, 206540,
    218210, 229970, 241710, 253320, 264740, 275930, 286820, 297350, 307500, 317280, 326670, 335710, 344400,
    352710, 360630, 368150, 375270, 382020, 388450, 394600, 400480, 406110, 411490, 416590, 421390, 425880,
    430050, 433920, 437530, 440870, 443980, 446870, 449550, 452060, 454410, 456680, 458890, 461060, 463150,
    465150, 467030, 468770, 470390, 471930, 473410, 474840, 476250, 477630, 479000, 480400, 481830, 483330,
    484880, 486440, 487930, 489330, 490630, 491790, 492820, 493750, 494570, 495240, 495800, 496290, 496810,
    497450, 498250, 499180, 500200, 501240, 502210, 503080, 503860, 504560, 505110, 505540, 505860, 506090,
    506260, 506410, 506610, 506890, 507270, 507790, 508400, 509050, 509660, 510140, 510420, 510590, 510670,
    510670, 510630, 510550, 510400, 510210, 510040, 509910, 509840, 509820, 509800, 509750, 509670, 509530,
    509390, 509270, 509190, 509200, 509350, 509700, 510240, 510960, 511800, 512700, 513550, 514260, 514750,
    514990, 514960, 514650, 514110, 513430, 512690, 511940, 511320, 510910, 510740, 510760, 510940, 511160,
    511320, 511340, 511250, 511070, 510850, 510620, 510380, 510120, 509850, 509550, 509190, 508780, 508260,
    507580, 506690, 505620, 504390, 503150, 502010, 501050, 500290, 499770, 499470, 499370, 499490, 499820,
    500300, 500830, 501300, 501700, 502100, 502610, 503360, 504440, 505820, 507380, 508940, 510470, 513900,
    516520, 518210, 518210, 518210, 518210, 521570, 523020, 524460, 525900, 527350, 528790, 530230, 531670,
    533110, 534550, 535990, 537430, 538870, 540310, 541750, 543190, 544620, 546060, 547490, 548930, 550360,
    551790, 553220, 554650, 556080, 557510, 558940, 560370, 561790, 563220, 564640, 566060, 567480, 568900,
    570320, 571740, 573160, 574570, 575990, 577400, 578810, 580220, 581630, 583040, 584450, 585850, 587260,
    588660, 590060, 591460, 592860, 594260, 595650, 597040, 598440, 599830, 601220, 602600, 603990, 605370,
    606750, 608130, 609510, 610890, 612270, 613640, 615010, 616380, 617750, 619110, 620480, 621840, 623200,
    624560, 625920, 627270, 628620, 629970, 631320]
  len := by decide +kernel

end CS.Data.TM30
