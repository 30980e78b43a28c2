import Verif.Data.Table

/-! IES TM-30-15 colour evaluation samples.  Generated by `tools/gen_data.py`. -/

namespace CS.Data.TM30

/-- `CES26` (hpp:3149-3189). -/
def CES26 : Table where
  scale := 6
  m := [
    181510, 180860, 180220, 179570, 178930, 178290, 177650, 177010, 176380, 175750, 175110, 174480, 173860,
    173230, 172610, 171980, 171360, 170740, 170130, 169510, 168800, 168340, 167770, 167110, 166370, 165580,
    164770, 163940, 163120, 162330, 161600, 160940, 160350, 159830, 159380, 159000, 158690, 158450, 158270,
    158150, 158100, 158110, 158180, 158320, 158530, 158810, 159150, 159580, 160070, 160650, 161300, 162030,
    162840, 163730, 164690, 165710, 166790, 167940, 169140, 170400, 171700, 173050, 174450, 175900, 177400,
    178950, 180560, 182230, 183960, 185750, 187600, 189520, 191500, 193540, 195630, 197770, 199950, 202170,
    204420, 206700, 209000, 211320, 213680, 216090, 218560, 221120, 223760, 226520, 229400, 232420, 235600,
    238940, 242440, 246060, 249790, 253620, 257510, 261460, 265440, 269420, 273400, 277350, 281300, 285260,
    289250, 293290, 297400, 301610, 305930, 310390, 315000, 319780, 324730, 329830, 335090, 340480, 346000,
    351640, 357390, 363250, 369200, 375240, 381350, 387550, 393820, 400170, 406580, 413070, 419620, 426230,
    432900, 439630, 446420, 453270, 460190, 467170, 474230, 481360, 488560, 495840, 503200, 510640, 518150,
    525700, 533280, 540880, 548460, 556030, 563550, 571010, 578400, 585690, 592900, 600010, 607040, 614000,
    620870, 627680, 634420, 641090, 647700, 654250, 660750, 667170, 673520, 679790, 685970, 692050, 698040,
    703930, 709700, 715360, 720890, 726310, 731600, 736770, 741820, 746730, 751520, 756180, 760700, 765090,
    769350, 773490, 777510, 781410, 785210, 788900, 792490, 795990, 799400, 802730, 805970, 809130, 812220,
    815230, 818160, 821020, 823820, 826540, 829200, 831790, 834320, 836790, 839200, 841550, 843830, 846060,
    848230, 850340, 852400, 854400, 856350, 858240, 860070, 861850, 863580, 865240, 866850, 868400, 869900,
    871340, 872720, 874060, 875350, 876590, 877800, 878970, 880110, 881220, 882300, 883360, 884400, 885410,
    886400, 887350, 888280, 889160, 890020, 890830, 891600, 892330, 893020, 893670, 894290, 894870, 895430,
    895950, 896460, 896940, 897400, 897850, 898280, 898690, 899080, 899460, 899830, 900170, 900500, 900810,
    901100, 901370, 901630, 901880, 902110, 902320, 902530, 902730, 902930, 903110, 903300, 903480, 903660,
    903840, 904020, 904190, 904360, 904530, 904690, 904850, 905000, 905150, 905290, 905430, 905570, 905700,
    905830, 905950, 906070, 906190, 906300, 906410, 906510, 906610, 906710, 906800, 906890, 906970, 907050,
    907130, 907200, 907270, 907330, 907400, 907460, 907520, 907590, 907660, 907730, 907810, 907900, 907990,
    908090, 908200, 908300, 908400, 908500, 908590, 908670, 908740, 908800, 908880, 908960, 909030, 909110,
    909180, 909260, 909330, 909410, 909480, 909560, 909630, 909700, 909780, 909850, 909930, 910000, 910070,
    910150, 910220, 910300, 910370, 910440, 910520, 910590, 910660, 910740, 910810, 910890, 910960, 911030,
    911100, 911180, 911250, 911320, 911400, 911470, 911540, 911620, 911690, 911760, 911830, 911910, 911980,
    912050, 912120, 912200, 912270, 912340, 912410, 912490, 912560, 912630, 912700, 912770, 912850, 912920,
    912990, 913060, 913130, 913200, 913280, 913350, 913420, 913490, 913560, 913630, 913700, 913780, 913850,
    913920, 913990, 914060, 914130, 914200, 914270, 914340, 914410, 914490, 914560]
  len := by decide +kernel

/-- `CES27` (hpp:3190-3230). -/
def CES27 : Table where
  scale := 6
  m := [
    64624, 64350, 64299, 64431, 64685, 64995, 65259, 65449, 65645, 65884, 66204, 66605, 66987, 67268, 67461,
    67575, 67627, 67711, 67868, 68095, 68390, 68748, 69193, 69808, 70678, 71852, 73348, 75113, 77052, 79087,
    81167, 83330, 85659, 88183, 90913, 93890, 97141, 100710, 104720, 109250, 114340, 119930, 125940, 132240,
    138770, 145480, 152330, 159270, 166230, 173120, 179800, 186180, 192190, 197760, 202880, 207580, 211880,
    215830, 219460, 222800, 225870, 228780, 231650, 234550, 237560, 240720, 243910, 246980, 249870, 252500,
    254860, 256940, 258770, 260320, 261630, 262720, 263640, 264530, 265510, 266650, 268050, 269740, 271680,
    273790, 275990, 278120, 280150, 282060, 283830, 285420, 286810, 287910, 288780, 289460, 290000, 290480,
    290960, 291340, 291610, 291810, 292000, 292270, 292700, 293320, 294150, 295160, 296330, 297690, 299240,
    300970, 302880, 304970, 307230, 309620, 312110, 314680, 317330, 320070, 322920, 325920, 329070, 332290,
    335510, 338670, 341730, 344630, 347360, 349910, 352310, 354620, 356910, 359250, 361700, 364270, 366960,
    369740, 372600, 375510, 378460, 381380, 384220, 386960, 389590, 392100, 394520, 396860, 399050, 401080,
    402910, 404520, 405920, 407160, 408220, 409130, 409870, 410450, 410870, 411210, 411520, 411890, 412370,
    413000, 413740, 414590, 415490, 416460, 417480, 418580, 419740, 420930, 422070, 423130, 424090, 424960,
    425780, 426570, 427330, 428020, 428600, 429060, 429410, 429690, 429960, 430260, 430590, 430900, 431180,
    431400, 431560, 431690, 431860, 432110, 432470, 432940, 433510, 434170, 434880, 435620, 436400, 437180,
    437990, 438780, 439540, 440240, 440850, 441340, 441730, 442050, 442320, 442540, 442760, 442960, 443180,
    443420, 443730, 444100, 444500, 444880, 445220, 445500, 445740, 445970, 446210, 446410, 446550, 446560,
    446430, 446240, 446090, 446040, 446170, 446470, 446850, 447230, 447620, 447940, 448210, 448480, 448750,
    448950, 449090, 449150, 449150, 449110, 449100, 449190, 449450, 449830, 450330, 450910, 451550, 452180,
    452800, 453400, 453990, 454560, 455110, 455620, 456100, 456510, 456810, 456940, 456870, 456580, 456040,
    455280, 454350, 453320, 452220, 451110, 450030, 449030, 448160, 447470, 446970, 446660, 446510, 446400,
    446280, 446080, 445790, 445450, 445120, 444800, 444570, 444450, 444400, 444370, 444400, 444400, 444300,
    444100, 443800, 443420, 443040, 442720, 442450, 442270, 442200, 442250, 442420, 442860, 443590, 444580,
    445750, 447040, 448340, 449620, 450890, 452190, 453580, 455040, 456520, 457880, 459090, 461210, 462480,
    463570, 463570, 463570, 463570, 467160, 468380, 469600, 470820, 472050, 473270, 474490, 475720, 476940,
    478160, 479390, 480610, 481840, 483060, 484290, 485510, 486740, 487960, 489190, 490420, 491640, 492870,
    494090, 495320, 496550, 497770, 499000, 500230, 501450, 502680, 503910, 505130, 506360, 507580, 508810,
    510040, 511260, 512490, 513710, 514940, 516160, 517390, 518610, 519840, 521060, 522290, 523510, 524730,
    525960, 527180, 528400, 529630, 530850, 532070, 533290, 534510, 535730, 536950, 538170, 539390, 540610,
    541830, 543040, 544260, 545480, 546690, 547910, 549120, 550340, 551550, 552770, 553980, 555190, 556400,
    557610, 558820, 560030, 561240, 562450]
  len := by decide +kernel

/-- `CES28` (hpp:3231-3271). -/
def CES28 : Table where
  scale := 6
  m := [
    45800, 43900, 47500, 45014, 44729, 44886, 44414, 44271, 44186, 43786, 43943, 43800, 43157, 43100, 43271,
    43171, 43429, 43629, 43800, 44329, 44671, 44686, 45329, 45571, 45714, 46500, 47071, 47200, 47971, 48043,
    47929, 48114, 47771, 47300, 47486, 46986, 46786, 47143, 46686, 46114, 46214, 45714, 45357, 45014, 44086,
    44000, 44443, 44086, 44100, 44429, 44557, 45171, 45486, 45314, 45971, 46529, 46443, 46771, 46714, 46686,
    47114, 47114, 46871, 47500, 47743, 47943, 48671, 49000, 48843, 48814, 48014, 47271, 47129, 46300, 45586,
    45371, 45000, 45000, 45657, 45514, 45557, 45914, 46000, 45986, 46200, 45743, 46000, 46429, 46343, 46514,
    47043, 47257, 48129, 48586, 48414, 48886, 49400, 49586, 50071, 50114, 49986, 50843, 51114, 50786, 50943,
    51129, 51171, 51757, 51286, 51129, 51843, 51786, 51500, 51971, 52000, 52657, 53614, 54100, 55286, 56814,
    57800, 59114, 60529, 61714, 63843, 65829, 67700, 70186, 73129, 75829, 79229, 82057, 84914, 88086, 91014,
    93157, 96086, 98414, 100470, 102660, 104430, 106000, 108240, 109560, 110690, 112370, 113840, 115030,
    116310, 116760, 117170, 118160, 118200, 118030, 118170, 117990, 118300, 118770, 118130, 118110, 118430,
    118490, 118770, 118840, 118260, 118690, 119090, 118830, 118940, 119030, 118770, 119210, 118990, 118390,
    118260, 117400, 115770, 114610, 113730, 114290, 115030, 115840, 116540, 117970, 119310, 120310, 120240,
    119960, 119700, 120340, 120270, 120290, 120730, 120700, 120640, 120870, 120310, 120100, 120170, 119910,
    120090, 120630, 120630, 121160, 121990, 122140, 122340, 122390, 122130, 122360, 122370, 121810, 121810,
    121830, 121330, 121160, 120610, 119890, 120090, 120000, 119510, 119600, 119130, 118790, 119190, 118960,
    118410, 118490, 118190, 118260, 118640, 118440, 118190, 118390, 118200, 118260, 118560, 118230, 117990,
    118130, 118130, 118290, 118630, 118410, 118790, 119370, 119370, 119340, 119340, 118900, 118810, 118490,
    117590, 117230, 116910, 116340, 116460, 116360, 115810, 116090, 116210, 116060, 116310, 116190, 115890,
    116370, 116560, 116560, 117010, 116910, 116560, 116840, 116540, 116100, 116140, 115710, 115490, 115810,
    115640, 115410, 115370, 114800, 114500, 114310, 113330, 112670, 112860, 112970, 113590, 114100, 114200,
    115100, 116030, 116060, 116190, 116240, 116170, 116610, 116630, 116160, 116360, 116430, 116010, 115710,
    114590, 113200, 113040, 113490, 113570, 114140, 114560, 115740, 117510, 118090, 117690, 117810, 117290,
    117230, 117140, 116470, 116270, 116270, 115630, 115340, 115060, 114430, 114540, 114760, 114630, 114990,
    115590, 115860, 116740, 117010, 116800, 116970, 117060, 116870, 117230, 117160, 117110, 117640, 117800,
    117970, 118560, 118710, 118890, 119310, 119260, 119410, 119790, 119470, 119240, 119390, 119100, 118840,
    118730, 118240, 118310, 118440, 117800, 117660, 118030, 117940, 118190, 118330, 117990, 118440, 118940,
    118660, 118800, 118910, 118800, 119210, 119230, 119060, 119660, 119930, 119930, 120330, 120300, 120260,
    120640, 120500, 120530, 121060, 121010, 121070, 121400, 121010, 120990, 121190, 120810, 120730, 121140,
    121200, 121310, 121440, 121140, 121090]
  len := by decide +kernel

/-- `CES29` (hpp:3272-3312). -/
def CES29 : Table where
  scale := 6
  m := [
    39813, 40155, 40499, 40847, 41197, 41550, 41907, 42266, 42628, 42993, 43360, 43731, 44105, 44482, 44862,
    45246, 45632, 46021, 46414, 46810, 47981, 48044, 48164, 48341, 48575, 48865, 49211, 49612, 50068, 50580,
    51145, 51765, 52438, 53165, 53945, 54778, 55663, 56600, 57589, 58629, 59720, 60864, 62066, 63336, 64683,
    66113, 67637, 69262, 70996, 72849, 74829, 76943, 79197, 81593, 84136, 86830, 89679, 92686, 95856, 99192,
    102700, 106380, 110230, 114260, 118450, 122810, 127340, 132040, 136900, 141920, 147110, 152450, 157940,
    163580, 169340, 175230, 181220, 187320, 193510, 199770, 206110, 212510, 218950, 225430, 231920, 238420,
    244900, 251360, 257770, 264130, 270430, 276640, 282770, 288810, 294780, 300660, 306470, 312190, 317850,
    323420, 328920, 334350, 339700, 344980, 350190, 355330, 360400, 365390, 370320, 375180, 379970, 384690,
    389370, 394010, 398640, 403280, 407950, 412660, 417430, 422280, 427230, 432300, 437480, 442780, 448180,
    453690, 459310, 465030, 470850, 476760, 482770, 488860, 495030, 501250, 507510, 513780, 520050, 526300,
    532510, 538660, 544730, 550710, 556600, 562390, 568080, 573670, 579150, 584540, 589820, 594990, 600060,
    605020, 609870, 614590, 619190, 623650, 627960, 632130, 636140, 639980, 643650, 647150, 650480, 653650,
    656670, 659560, 662310, 664950, 667470, 669900, 672240, 674500, 676680, 678790, 680830, 682800, 684720,
    686580, 688380, 690130, 691840, 693500, 695120, 696700, 698240, 699750, 701210, 702640, 704040, 705410,
    706740, 708050, 709330, 710590, 711830, 713050, 714270, 715470, 716680, 717890, 719100, 720310, 721540,
    722760, 723990, 725210, 726420, 727630, 728820, 729990, 731140, 732270, 733380, 734480, 735560, 736630,
    737700, 738760, 739820, 740890, 741960, 743050, 744140, 745250, 746370, 747510, 748670, 749850, 751040,
    752260, 753500, 754760, 756050, 757350, 758670, 759990, 761330, 762670, 764010, 765340, 766670, 767990,
    769290, 770580, 771840, 773080, 774300, 775480, 776630, 777750, 778820, 779840, 780830, 781760, 782660,
    783510, 784310, 785070, 785790, 786460, 787090, 787670, 788210, 788710, 789180, 789620, 790030, 790420,
    790790, 791140, 791480, 791800, 792130, 792470, 792830, 793210, 793640, 794120, 794660, 795270, 795970,
    796750, 797610, 798540, 799540, 800600, 801700, 802840, 804000, 805190, 806380, 807580, 808770, 809970,
    811170, 812360, 813560, 814750, 815950, 817140, 818320, 819510, 820690, 821860, 823030, 824190, 825330,
    826460, 827580, 828680, 829760, 830820, 831860, 832870, 833860, 834820, 835750, 836650, 837520, 838350,
    839150, 840450, 841400, 842350, 843290, 844230, 845160, 846090, 847010, 847930, 848850, 849760, 850660,
    851570, 852460, 853350, 854240, 855130, 856000, 856880, 857750, 858610, 859480, 860330, 861180, 862030,
    862880, 863720, 864550, 865380, 866210, 867030, 867850, 868660, 869470, 870280, 871080, 871870, 872670,
    873450, 874240, 875020, 875790, 876560, 877330, 878100, 878850, 879610, 880360, 881110, 881850, 882590,
    883330, 884060, 884780, 885510, 886230, 886940, 887650, 888360, 889060, 889760, 890460, 891150, 891840,
    892520, 893200, 893880, 894550, 895220, 895890, 896550, 897200, 897860, 898510, 899160, 899800, 900440,
    901070, 901710]
  len := by decide +kernel

/-- `CES30` (hpp:3313-3353). -/
def CES30 : Table where
  scale := 6
  m := [
    30430, 30767, 31096, 31410, 31715, 31976, 32081, 32014, 31841, 31608, 31346, 31072, 30760, 30398, 29997,
    29564, 29106, 28686, 28354, 28124, 27991, 27991, 28144, 28445, 28871, 29427, 30051, 30652, 31146, 31473,
    31587, 31529, 31337, 31059, 30771, 30541, 30379, 30318, 30356, 30475, 30682, 31018, 31522, 32335, 33535,
    35104, 36995, 39153, 41434, 43778, 46178, 48632, 51116, 53631, 56110, 58577, 61110, 63807, 66759, 70079,
    73778, 77809, 82134, 86771, 91747, 97106, 102870, 109000, 115380, 121890, 128430, 134930, 141400,
    147860, 154310, 160710, 166990, 173060, 178820, 184250, 189450, 194430, 199240, 203960, 208600, 213010,
    217130, 220950, 224410, 227490, 230250, 232660, 234700, 236360, 237650, 238600, 239400, 240180, 241030,
    242010, 243130, 244340, 245590, 246900, 248270, 249700, 251170, 252690, 254190, 255680, 257150, 258630,
    260080, 261530, 262940, 264320, 265650, 266930, 268150, 269230, 270110, 270740, 271130, 271350, 271460,
    271550, 271670, 271790, 271890, 271950, 272000, 272080, 272270, 272580, 273010, 273530, 274090, 274640,
    275200, 275750, 276300, 276830, 277330, 277710, 278000, 278190, 278310, 278410, 278500, 278570, 278620,
    278650, 278660, 278680, 278760, 278890, 279040, 279190, 279310, 279410, 279550, 279770, 280110, 280580,
    281130, 281730, 282360, 283020, 283720, 284470, 285240, 285980, 286670, 287270, 287810, 288330, 288880,
    289490, 290180, 290950, 291770, 292640, 293550, 294530, 295570, 296640, 297720, 298780, 299770, 300700,
    301540, 302320, 303050, 303740, 304400, 305070, 305750, 306440, 307150, 307920, 308710, 309540, 310430,
    311370, 312350, 313400, 314470, 315580, 316720, 317880, 319030, 320240, 321470, 322700, 323910, 325090,
    326180, 327180, 328090, 328940, 329740, 330540, 331320, 332120, 332960, 333880, 334860, 335900, 336970,
    338000, 338940, 339740, 340430, 341040, 341630, 342200, 342770, 343320, 343800, 344180, 344510, 344840,
    345210, 345630, 346120, 346610, 347020, 347290, 347480, 347630, 347790, 348080, 348500, 349030, 349680,
    350400, 351160, 351980, 352860, 353670, 354380, 354930, 355200, 355220, 355090, 354850, 354550, 354250,
    353950, 353640, 353380, 353190, 353150, 353310, 353630, 354030, 354480, 354880, 355150, 355370, 355610,
    355920, 356420, 357060, 357790, 358520, 359170, 359580, 359790, 359840, 359710, 359440, 359100, 358650,
    358070, 357390, 356640, 355890, 355250, 354770, 354490, 354370, 354270, 354110, 353910, 353730, 353660,
    353830, 354220, 354760, 355400, 356090, 356820, 357700, 358790, 360750, 361580, 362290, 363410, 365140,
    365140, 365920, 366830, 367750, 368670, 369590, 370510, 371430, 372350, 373270, 374190, 375120, 376040,
    376970, 377900, 378820, 379750, 380680, 381610, 382540, 383480, 384410, 385340, 386280, 387210, 388150,
    389090, 390030, 390960, 391900, 392840, 393790, 394730, 395670, 396610, 397560, 398500, 399450, 400400,
    401340, 402290, 403240, 404190, 405140, 406090, 407040, 408000, 408950, 409900, 410860, 411810, 412770,
    413720, 414680, 415640, 416600, 417560, 418520, 419480, 420440, 421400, 422360, 423320, 424290, 425250,
    426220, 427180, 428150, 429110, 430080, 431050, 432010, 432980, 433950, 434920, 435890, 436860, 437830,
    438800, 439770]
  len := by decide +kernel

/-- `CES31` (hpp:3354-3394). -/
def CES31 : Table where
  scale := 6
  m := [
    44010, 43824, 43705, 43651, 43661, 43734, 43868, 44062, 44314, 44624, 44990, 45410, 45884, 46409, 46984,
    47609, 48281, 49000, 49763, 50571, 51420, 52310, 53239, 54205, 55205, 56238, 57302, 58394, 59512, 60655,
    61820, 63007, 64220, 65467, 66754, 68088, 69475, 70922, 72436, 74023, 75690, 77442, 79281, 81207, 83219,
    85318, 87504, 89777, 92138, 94585, 97120, 99742, 102450, 105240, 108120, 111080, 114130, 117250, 120460,
    123740, 127100, 130540, 134060, 137660, 141350, 145130, 149000, 152980, 157050, 161220, 165510, 169900,
    174410, 179010, 183710, 188500, 193370, 198330, 203360, 208470, 213640, 218880, 224190, 229610, 235140,
    240810, 246640, 252640, 258840, 265250, 271890, 278780, 285880, 293160, 300590, 308130, 315740, 323390,
    331040, 338660, 346210, 353670, 361040, 368370, 375680, 382990, 390330, 397730, 405210, 412810, 420550,
    428450, 436470, 444590, 452770, 460970, 469160, 477290, 485330, 493250, 501010, 508580, 515950, 523140,
    530160, 537020, 543710, 550260, 556660, 562930, 569080, 575110, 581010, 586770, 592390, 597860, 603170,
    608310, 613260, 618030, 622600, 626970, 631140, 635140, 638970, 642640, 646180, 649590, 652890, 656090,
    659210, 662250, 665220, 668130, 670960, 673730, 676420, 679060, 681620, 684130, 686570, 688950, 691270,
    693530, 695740, 697900, 700010, 702080, 704110, 706090, 708040, 709960, 711840, 713700, 715530, 717340,
    719130, 720900, 722660, 724410, 726150, 727890, 729610, 731320, 733010, 734670, 736300, 737900, 739450,
    740960, 742410, 743810, 745150, 746460, 747720, 748950, 750150, 751340, 752510, 753680, 754840, 756010,
    757180, 758360, 759530, 760700, 761870, 763040, 764190, 765340, 766480, 767600, 768710, 769800, 770860,
    771900, 772910, 773880, 774810, 775700, 776550, 777350, 778110, 778820, 779510, 780170, 780810, 781430,
    782040, 782650, 783260, 783870, 784500, 785120, 785760, 786410, 787060, 787720, 788400, 789080, 789780,
    790490, 791200, 791930, 792650, 793380, 794110, 794830, 795540, 796250, 796940, 797620, 798270, 798910,
    799530, 800120, 800690, 801220, 801730, 802200, 802640, 803040, 803420, 803770, 804110, 804450, 804790,
    805150, 805530, 805950, 806400, 806900, 807440, 808000, 808580, 809160, 809730, 810280, 810800, 811280,
    811700, 812060, 812360, 812620, 812840, 813020, 813200, 813360, 813520, 813690, 813880, 814100, 814340,
    814620, 814910, 815240, 815590, 815960, 816360, 816780, 817220, 817680, 818160, 818650, 819160, 819660,
    820170, 820680, 821180, 821670, 822150, 822610, 823050, 823480, 823890, 824290, 824680, 825050, 825410,
    825770, 826110, 826450, 826770, 827090, 827400, 827690, 827980, 828250, 828510, 828760, 828990, 829210,
    829410, 829600, 829770, 829930, 830070, 830200, 830310, 830400, 830480, 830540, 830580, 830610, 830610,
    830600, 830570, 830520, 830450, 830370, 830260, 830550, 830560, 830580, 830590, 830600, 830620, 830630,
    830650, 830660, 830670, 830690, 830700, 830720, 830730, 830740, 830760, 830770, 830790, 830800, 830810,
    830830, 830840, 830850, 830870, 830880, 830900, 830910, 830920, 830940, 830950, 830970, 830980, 830990,
    831010, 831020, 831030, 831050, 831060, 831080, 831090, 831100, 831120, 831130, 831150, 831160, 831170,
    831190, 831200, 831210]
  len := by decide +kernel

/-- `CES32` (hpp:3395-3435). -/
def CES32 : Table where
  scale := 6
  m := [
    46277, 46104, 45931, 45759, 45587, 45416, 45246, 45077, 44908, 44739, 44571, 44404, 44237, 44071, 43906,
    43741, 43577, 43413, 43250, 43088, 42900, 42779, 42628, 42453, 42261, 42058, 41851, 41645, 41447, 41263,
    41100, 40963, 40852, 40770, 40715, 40689, 40692, 40724, 40786, 40878, 41000, 41153, 41338, 41555, 41804,
    42086, 42400, 42749, 43131, 43548, 44000, 44487, 45010, 45568, 46163, 46793, 47461, 48165, 48906, 49684,
    50500, 51354, 52249, 53189, 54177, 55216, 56310, 57461, 58675, 59953, 61300, 62718, 64209, 65774, 67414,
    69131, 70925, 72798, 74751, 76784, 78900, 81099, 83384, 85756, 88219, 90773, 93421, 96166, 99009,
    101950, 105000, 108150, 111410, 114770, 118230, 121800, 125480, 129250, 133130, 137110, 141200, 145390,
    149670, 154050, 158520, 163070, 167700, 172400, 177170, 182000, 186900, 191850, 196860, 201910, 207020,
    212180, 217390, 222650, 227950, 233300, 238700, 244140, 249630, 255160, 260740, 266360, 272030, 277750,
    283520, 289340, 295200, 301110, 307070, 313070, 319110, 325170, 331260, 337380, 343510, 349650, 355800,
    361950, 368100, 374230, 380350, 386440, 392490, 398500, 404460, 410360, 416200, 421960, 427640, 433220,
    438680, 444020, 449210, 454250, 459120, 463810, 468300, 472580, 476650, 480510, 484140, 487560, 490760,
    493730, 496480, 499010, 501300, 503360, 505200, 506820, 508220, 509410, 510400, 511180, 511780, 512180,
    512400, 512440, 512320, 512060, 511650, 511130, 510500, 509770, 508970, 508110, 507200, 506250, 505290,
    504300, 503320, 502350, 501390, 500470, 499590, 498760, 498000, 497310, 496680, 496110, 495600, 495120,
    494680, 494270, 493870, 493480, 493100, 492710, 492300, 491880, 491420, 490930, 490380, 489790, 489130,
    488400, 487600, 486710, 485750, 484710, 483620, 482480, 481290, 480070, 478830, 477570, 476300, 475040,
    473790, 472570, 471410, 470300, 469280, 468350, 467540, 466850, 466300, 465910, 465690, 465660, 465840,
    466230, 466860, 467730, 468870, 470290, 472000, 474020, 476340, 478980, 481930, 485180, 488750, 492620,
    496800, 501300, 506100, 511210, 516620, 522310, 528260, 534470, 540920, 547590, 554470, 561540, 568800,
    576220, 583780, 591450, 599200, 606990, 614810, 622620, 630390, 638090, 645700, 653180, 660540, 667750,
    674820, 681730, 688490, 695080, 701500, 707740, 713800, 719670, 725360, 730890, 736270, 741510, 746640,
    751650, 756580, 761420, 766200, 770930, 775620, 780280, 784920, 789560, 794210, 798880, 803570, 808310,
    813100, 817940, 822780, 827530, 832140, 836520, 840610, 844340, 847620, 850400, 852600, 855940, 858780,
    861560, 864300, 866990, 869640, 872240, 874800, 877320, 879790, 882220, 884600, 886950, 889250, 891510,
    893730, 895910, 898050, 900150, 902210, 904230, 906220, 908170, 910080, 911960, 913800, 915610, 917380,
    919120, 920830, 922500, 924140, 925750, 927320, 928870, 930380, 931870, 933320, 934750, 936150, 937520,
    938860, 940180, 941470, 942730, 943970, 945180, 946370, 947530, 948670, 949790, 950880, 951950, 953000,
    954030, 955030, 956010, 956980, 957920, 958850, 959750, 960640, 961500, 962350, 963180, 963990, 964790,
    965570, 966330, 967070, 967800, 968520, 969220, 969900, 970570, 971220, 971860, 972490, 973100]
  len := by decide +kernel

/-- `CES33` (hpp:3436-3476). -/
def CES33 : Table where
  scale := 6
  m := [
    173150, 174480, 175790, 177060, 178310, 179550, 180760, 181960, 183150, 184330, 185510, 186690, 187870,
    189060, 190260, 191470, 192710, 193960, 195230, 196540, 197870, 199240, 200620, 202000, 203370, 204700,
    205980, 207190, 208310, 209330, 210230, 211000, 211660, 212230, 212740, 213210, 213670, 214150, 214680,
    215270, 215950, 216750, 217660, 218700, 219850, 221120, 222500, 224010, 225630, 227360, 229210, 231180,
    233280, 235550, 237990, 240630, 243500, 246620, 249990, 253660, 257640, 261950, 266600, 271630, 277030,
    282830, 289050, 295700, 302800, 310360, 318410, 326940, 335920, 345270, 354940, 364870, 375000, 385270,
    395620, 405990, 416310, 426540, 436670, 446670, 456560, 466320, 475930, 485410, 494730, 503900, 512900,
    521720, 530340, 538730, 546840, 554660, 562140, 569250, 575970, 582260, 588090, 593440, 598320, 602760,
    606810, 610480, 613800, 616810, 619530, 622000, 624240, 626290, 628160, 629910, 631540, 633100, 634610,
    636110, 637620, 639170, 640790, 642510, 644320, 646210, 648160, 650180, 652230, 654320, 656440, 658560,
    660680, 662790, 664880, 666950, 668990, 671010, 672990, 674930, 676830, 678680, 680480, 682230, 683930,
    685580, 687210, 688810, 690400, 691970, 693550, 695130, 696720, 698330, 699960, 701600, 703240, 704890,
    706520, 708140, 709740, 711320, 712870, 714380, 715850, 717290, 718670, 720010, 721300, 722530, 723710,
    724820, 725880, 726870, 727810, 728720, 729600, 730480, 731360, 732260, 733190, 734170, 735220, 736340,
    737520, 738740, 739980, 741230, 742480, 743690, 744860, 745960, 746990, 747920, 748770, 749540, 750250,
    750910, 751530, 752120, 752690, 753260, 753830, 754420, 755020, 755640, 756280, 756920, 757570, 758220,
    758880, 759550, 760210, 760870, 761540, 762210, 762900, 763610, 764350, 765110, 765910, 766750, 767630,
    768560, 769540, 770550, 771590, 772650, 773720, 774790, 775870, 776930, 777970, 778990, 779970, 780930,
    781840, 782710, 783530, 784310, 785020, 785680, 786270, 786800, 787260, 787690, 788070, 788440, 788790,
    789130, 789490, 789870, 790280, 790730, 791210, 791720, 792250, 792780, 793310, 793840, 794350, 794830,
    795280, 795690, 796060, 796410, 796740, 797060, 797370, 797690, 798030, 798380, 798770, 799190, 799650,
    800130, 800640, 801180, 801740, 802320, 802910, 803510, 804120, 804740, 805350, 805970, 806580, 807180,
    807770, 808350, 808900, 809440, 809950, 810430, 810890, 811330, 811750, 812150, 812540, 812920, 813290,
    813660, 814030, 814400, 814770, 815150, 815540, 815930, 816340, 816750, 817180, 817620, 818070, 818540,
    819030, 819520, 820030, 820550, 821080, 821620, 822160, 822710, 823260, 823810, 824360, 824900, 825430,
    825930, 826420, 826880, 827300, 827690, 828040, 828340, 828610, 828840, 829050, 829240, 829430, 829620,
    829820, 830030, 830270, 830540, 830860, 831220, 831640, 832130, 832680, 833320, 834050, 834880, 835810,
    835220, 835650, 836080, 836500, 836930, 837350, 837780, 838200, 838620, 839040, 839460, 839880, 840300,
    840720, 841140, 841550, 841970, 842380, 842790, 843210, 843620, 844030, 844440, 844850, 845250, 845660,
    846070, 846470, 846880, 847280, 847680, 848090, 848490, 848890, 849290, 849680, 850080, 850480, 850870,
    851270, 851660, 852060, 852450, 852840, 853230, 853620, 854010, 854400, 854780]
  len := by decide +kernel

/-- `CES34` (hpp:3477-3517). -/
def CES34 : Table where
  scale := 6
  m := [
    43542, 43559, 43576, 43593, 43610, 43627, 43644, 43661, 43678, 43695, 43712, 43729, 43746, 43763, 43780,
    43797, 43814, 43831, 43848, 43866, 43885, 43898, 43915, 43933, 43953, 43972, 43991, 44009, 44023, 44034,
    44040, 44041, 44037, 44031, 44022, 44012, 44003, 43996, 43992, 43991, 43996, 44007, 44024, 44047, 44075,
    44108, 44145, 44187, 44232, 44280, 44331, 44384, 44441, 44501, 44567, 44638, 44716, 44802, 44896, 44999,
    45112, 45237, 45375, 45528, 45699, 45889, 46101, 46337, 46599, 46890, 47210, 47563, 47944, 48352, 48781,
    49230, 49694, 50171, 50656, 51146, 51639, 52132, 52632, 53149, 53691, 54266, 54885, 55555, 56285, 57085,
    57963, 58926, 59974, 61105, 62318, 63611, 64982, 66429, 67951, 69545, 71210, 72945, 74752, 76632, 78589,
    80625, 82742, 84942, 87228, 89603, 92068, 94626, 97274, 100010, 102830, 105730, 108720, 111770, 114910,
    118110, 121380, 124720, 128140, 131660, 135290, 139060, 142980, 147060, 151330, 155790, 160480, 165390,
    170530, 175890, 181480, 187270, 193280, 199490, 205910, 212520, 219320, 226300, 233400, 240550, 247690,
    254740, 261640, 268330, 274730, 280790, 286420, 291580, 296280, 300530, 304370, 307800, 310860, 313560,
    315930, 317980, 319750, 321240, 322490, 323520, 324340, 324970, 325450, 325800, 326020, 326150, 326210,
    326220, 326180, 326090, 325960, 325790, 325590, 325350, 325080, 324780, 324460, 324110, 323750, 323360,
    322950, 322530, 322090, 321630, 321160, 320690, 320200, 319700, 319190, 318670, 318150, 317620, 317080,
    316530, 315980, 315420, 314860, 314280, 313700, 313110, 312500, 311890, 311250, 310590, 309920, 309210,
    308490, 307730, 306950, 306140, 305300, 304430, 303540, 302620, 301680, 300710, 299710, 298680, 297640,
    296580, 295510, 294430, 293360, 292290, 291230, 290190, 289170, 288170, 287200, 286260, 285340, 284460,
    283590, 282760, 281960, 281180, 280430, 279710, 279020, 278350, 277700, 277070, 276460, 275860, 275280,
    274700, 274140, 273580, 273030, 272480, 271950, 271410, 270890, 270370, 269860, 269350, 268850, 268360,
    267880, 267400, 266940, 266490, 266050, 265640, 265230, 264850, 264490, 264150, 263840, 263540, 263270,
    263030, 262800, 262600, 262420, 262260, 262130, 262020, 261940, 261880, 261850, 261860, 261900, 261990,
    262110, 262270, 262480, 262740, 263030, 263360, 263720, 264100, 264500, 264900, 265310, 265700, 266090,
    266460, 266820, 267160, 267510, 267860, 268210, 268580, 268970, 269380, 269810, 270280, 270780, 271280,
    271780, 272280, 272750, 273180, 273570, 273910, 274170, 274590, 274950, 275300, 275660, 276020, 276380,
    276740, 277100, 277460, 277820, 278180, 278540, 278900, 279270, 279630, 279990, 280350, 280710, 281080,
    281440, 281800, 282170, 282530, 282900, 283260, 283630, 283990, 284360, 284720, 285090, 285450, 285820,
    286190, 286560, 286920, 287290, 287660, 288030, 288400, 288760, 289130, 289500, 289870, 290240, 290610,
    290980, 291350, 291730, 292100, 292470, 292840, 293210, 293590, 293960, 294330, 294700, 295080, 295450,
    295830, 296200, 296580, 296950, 297330, 297700, 298080, 298450, 298830, 299210, 299580, 299960, 300340,
    300720, 301090, 301470, 301850, 302230, 302610, 302990, 303370]
  len := by decide +kernel

/-- `CES35` (hpp:3518-3558). -/
def CES35 : Table where
  scale := 6
  m := [
    52651, 52641, 52631, 52621, 52611, 52601, 52591, 52581, 52571, 52561, 52552, 52542, 52532, 52522, 52512,
    52502, 52492, 52482, 52472, 52462, 52449, 52444, 52436, 52425, 52409, 52388, 52360, 52325, 52282, 52229,
    52166, 52092, 52008, 51914, 51812, 51703, 51587, 51466, 51341, 51212, 51080, 50947, 50814, 50680, 50547,
    50415, 50285, 50159, 50035, 49916, 49802, 49694, 49591, 49494, 49403, 49318, 49240, 49168, 49102, 49042,
    48989, 48943, 48904, 48872, 48846, 48828, 48817, 48813, 48816, 48827, 48845, 48871, 48903, 48941, 48984,
    49031, 49081, 49133, 49186, 49239, 49292, 49343, 49397, 49455, 49523, 49602, 49696, 49809, 49944, 50105,
    50294, 50515, 50772, 51066, 51400, 51777, 52199, 52670, 53192, 53767, 54399, 55089, 55836, 56640, 57498,
    58408, 59371, 60383, 61444, 62552, 63705, 64901, 66134, 67397, 68683, 69985, 71295, 72607, 73913, 75207,
    76481, 77730, 78951, 80144, 81308, 82441, 83544, 84614, 85652, 86657, 87627, 88565, 89482, 90393, 91313,
    92257, 93240, 94276, 95381, 96568, 97853, 99246, 100740, 102320, 103980, 105700, 107480, 109290, 111130,
    112990, 114850, 116700, 118530, 120320, 122060, 123720, 125300, 126780, 128140, 129370, 130450, 131380,
    132150, 132780, 133290, 133680, 133960, 134150, 134260, 134300, 134280, 134210, 134100, 133950, 133770,
    133550, 133310, 133050, 132760, 132460, 132160, 131840, 131520, 131200, 130870, 130540, 130210, 129870,
    129530, 129200, 128860, 128530, 128200, 127870, 127530, 127200, 126870, 126540, 126210, 125870, 125540,
    125200, 124860, 124510, 124160, 123810, 123450, 123090, 122720, 122340, 121960, 121570, 121170, 120760,
    120350, 119920, 119490, 119050, 118600, 118140, 117670, 117190, 116700, 116210, 115710, 115220, 114730,
    114240, 113760, 113290, 112830, 112380, 111950, 111530, 111130, 110740, 110360, 109990, 109630, 109280,
    108940, 108610, 108290, 107980, 107680, 107380, 107090, 106800, 106520, 106250, 105980, 105710, 105450,
    105190, 104930, 104680, 104430, 104190, 103950, 103710, 103490, 103260, 103040, 102830, 102620, 102420,
    102230, 102040, 101860, 101700, 101540, 101390, 101250, 101120, 100990, 100880, 100770, 100670, 100580,
    100490, 100410, 100340, 100270, 100210, 100160, 100120, 100100, 100100, 100110, 100140, 100190, 100260,
    100360, 100460, 100580, 100710, 100840, 100970, 101090, 101210, 101310, 101400, 101480, 101550, 101620,
    101680, 101750, 101820, 101910, 102010, 102130, 102270, 102420, 102590, 102760, 102930, 103100, 103270,
    103410, 103540, 103640, 103800, 103930, 104070, 104200, 104340, 104480, 104610, 104750, 104890, 105020,
    105160, 105300, 105430, 105570, 105710, 105850, 105990, 106120, 106260, 106400, 106540, 106680, 106820,
    106960, 107090, 107230, 107370, 107510, 107650, 107790, 107930, 108070, 108210, 108350, 108500, 108640,
    108780, 108920, 109060, 109200, 109340, 109490, 109630, 109770, 109910, 110050, 110200, 110340, 110480,
    110630, 110770, 110910, 111060, 111200, 111350, 111490, 111630, 111780, 111920, 112070, 112210, 112360,
    112500, 112650, 112790, 112940, 113090, 113230, 113380, 113530, 113670, 113820, 113970, 114110, 114260,
    114410, 114560, 114700, 114850]
  len := by decide +kernel

/-- `CES36` (hpp:3559-3599). -/
def CES36 : Table where
  scale := 6
  m := [
    34314, 34654, 35058, 35570, 36236, 37075, 38061, 39149, 40302, 41518, 42834, 44321, 46071, 48169, 50668,
    53584, 56925, 60705, 64953, 69717, 75062, 79028, 83284, 87829, 92658, 97763, 103136, 108773, 114675,
    120846, 127288, 134004, 140999, 148279, 155848, 163707, 171860, 180305, 189035, 198031, 207270, 216728,
    226378, 236189, 246131, 256177, 266301, 276478, 286688, 296910, 307123, 317310, 327453, 337533, 347522,
    357395, 367130, 376703, 386085, 395235, 404130, 412744, 421050, 429029, 436667, 443969, 450934, 457566,
    463867, 469840, 475494, 480833, 485866, 490598, 495033, 499170, 503006, 506530, 509734, 512618, 515188,
    517463, 519459, 521201, 522710, 524002, 525096, 526007, 526755, 527349, 527811, 528164, 528422, 528594,
    528680, 528701, 528670, 528596, 528495, 528391, 528316, 528274, 528273, 528315, 528403, 528534, 528696,
    528888, 529106, 529343, 529591, 529834, 530062, 530262, 530426, 530552, 530643, 530711, 530768, 530833,
    530922, 531046, 531211, 531417, 531659, 531933, 532232, 532547, 532868, 533179, 533468, 533715, 533902,
    534016, 534054, 534019, 533911, 533737, 533498, 533195, 532830, 532405, 531930, 531421, 530899, 530387,
    529907, 529479, 529113, 528818, 528600, 528457, 528382, 528368, 528406, 528482, 528580, 528684, 528780,
    528855, 528897, 528894, 528840, 528734, 528576, 528370, 528123, 527848, 527559, 527270, 526998, 526762,
    526578, 526462, 526430, 526495, 526666, 526948, 527340, 527839, 528432, 529100, 529822, 530578, 531347,
    532103, 532828, 533506, 534125, 534677, 535156, 535565, 535912, 536210, 536469, 536704, 536931, 537164,
    537410, 537679, 537978, 538313, 538688, 539105, 539566, 540071, 540616, 541198, 541810, 542446, 543099,
    543758, 544413, 545054, 545668, 546240, 546757, 547212, 547599, 547917, 548170, 548373, 548540, 548687,
    548831, 548987, 549171, 549395, 549664, 549982, 550349, 550760, 551208, 551680, 552167, 552663, 553161,
    553660, 554161, 554667, 555178, 555689, 556189, 556663, 557094, 557462, 557751, 557953, 558062, 558079,
    558008, 557863, 557667, 557441, 557216, 557021, 556886, 556831, 556862, 556979, 557174, 557433, 557733,
    558053, 558377, 558688, 558970, 559212, 559409, 559560, 559666, 559731, 559768, 559794, 559832, 559894,
    559995, 560142, 560338, 560570, 560821, 561081, 561339, 561578, 561778, 561924, 562006, 562016, 561954,
    561827, 561651, 561449, 561230, 560997, 560751, 560412, 560168, 559972, 559766, 559481, 559120, 558430,
    557644, 556779, 555848, 554862, 553832, 552765, 551671, 550553, 549410, 548247, 547062, 545851, 544600,
    543296, 541927, 540482, 538951, 537331, 535626, 533850, 532009, 530121, 528208, 526304, 524443, 522651,
    520952, 519354, 517858, 516445, 515090, 513772, 512467, 511156, 509893, 508466, 506897, 505230, 503531,
    501796, 500284, 498773, 497261, 495750, 494239, 492728, 491217, 489706, 488195, 486684, 485174, 483665,
    482155, 480646, 479137, 477628, 476120, 474612, 473105, 471599, 470092, 468587, 467081, 465577, 464073,
    462570, 461067, 459565, 458064, 456564, 455064, 453565, 452067, 450570, 449074, 447579, 446084, 444591,
    443099, 441600, 440103, 438607, 437112, 435618, 434126, 432634, 431144, 429656, 428169, 426683, 425199,
    423717, 422237, 420758, 419281, 417806, 416332, 414860]
  len := by decide +kernel

/-- `CES37` (hpp:3600-3640). -/
def CES37 : Table where
  scale := 6
  m := [
    50280, 50270, 50261, 50251, 50242, 50232, 50223, 50213, 50204, 50195, 50185, 50176, 50166, 50157, 50147,
    50138, 50128, 50119, 50110, 50100, 50000, 50041, 50068, 50085, 50091, 50089, 50080, 50065, 50046, 50024,
    50000, 49976, 49954, 49935, 49920, 49911, 49909, 49915, 49932, 49959, 50000, 50054, 50122, 50202, 50292,
    50392, 50501, 50617, 50740, 50868, 51000, 51136, 51278, 51429, 51592, 51770, 51967, 52186, 52428, 52699,
    53000, 53333, 53696, 54081, 54485, 54901, 55326, 55753, 56178, 56596, 57000, 57387, 57756, 58106, 58437,
    58749, 59041, 59312, 59562, 59792, 60000, 60186, 60352, 60496, 60621, 60728, 60816, 60886, 60940, 60978,
    61000, 61009, 61014, 61022, 61045, 61091, 61169, 61290, 61462, 61696, 62000, 62381, 62834, 63349, 63919,
    64535, 65188, 65869, 66571, 67284, 68000, 68709, 69395, 70042, 70631, 71145, 71568, 71882, 72071, 72116,
    72000, 71723, 71345, 70944, 70598, 70384, 70379, 70661, 71307, 72394, 74000, 76182, 78913, 82148, 85840,
    89943, 94411, 99196, 104250, 109540, 115000, 120590, 126260, 131940, 137570, 143090, 148450, 153580,
    158420, 162910, 167000, 170640, 173870, 176740, 179330, 181680, 183860, 185920, 187930, 189930, 192000,
    194170, 196400, 198640, 200830, 202930, 204870, 206600, 208070, 209220, 210000, 210360, 210330, 209920,
    209170, 208110, 206750, 205130, 203290, 201230, 199000, 196620, 194120, 191520, 188850, 186150, 183440,
    180730, 178080, 175490, 173000, 170630, 168390, 166270, 164280, 162420, 160680, 159070, 157580, 156230,
    155000, 153900, 152950, 152150, 151510, 151060, 150810, 150760, 150930, 151340, 152000, 152910, 154000,
    155220, 156480, 157710, 158850, 159820, 160550, 160970, 161000, 160600, 159800, 158660, 157240, 155590,
    153780, 151850, 149880, 147910, 146000, 144200, 142510, 140910, 139380, 137920, 136500, 135110, 133750,
    132380, 131000, 129600, 128170, 126740, 125300, 123860, 122440, 121030, 119650, 118300, 117000, 115740,
    114520, 113340, 112170, 111010, 109850, 108680, 107490, 106260, 105000, 103690, 102360, 101030, 99727,
    98480, 97315, 96258, 95335, 94574, 94000, 93639, 93510, 93633, 94026, 94708, 95697, 97012, 98672,
    100700, 103100, 105900, 109090, 112640, 116550, 120800, 125370, 130250, 135430, 140880, 146600, 152570,
    158770, 165210, 171880, 178770, 185870, 193180, 200700, 208400, 216300, 224380, 232630, 241040, 249610,
    258330, 267180, 276160, 285270, 294480, 303800, 313210, 322710, 332280, 341920, 351620, 361370, 371160,
    380990, 390840, 400700, 412320, 422850, 433460, 444120, 454840, 465600, 476390, 487210, 498030, 508860,
    519680, 530480, 541250, 551990, 562670, 573300, 583860, 594340, 604740, 615050, 625250, 635340, 645320,
    655170, 664890, 674470, 683900, 693190, 702330, 711300, 720110, 728760, 737240, 745540, 753670, 761620,
    769400, 776990, 784410, 791640, 798700, 805570, 812260, 818780, 825120, 831280, 837270, 843080, 848730,
    854210, 859520, 864670, 869660, 874490, 879170, 883690, 888070, 892300, 896400, 900350, 904170, 907860,
    911420, 914850, 918170, 921360, 924440, 927410, 930280, 933030, 935690, 938250, 940710, 943080, 945360,
    947560, 949670, 951700, 953650]
  len := by decide +kernel

/-- `CES38` (hpp:3641-3681). -/
def CES38 : Table where
  scale := 6
  m := [
    113230, 112997, 113218, 113931, 114694, 115251, 115559, 115345, 114266, 112351, 109791, 106768, 103524,
    100469, 97758, 95408, 93312, 91402, 89653, 88110, 86886, 85770, 84746, 83812, 82972, 82241, 81656,
    81253, 81070, 81123, 81421, 81956, 82728, 83753, 85097, 86814, 88936, 91465, 94410, 97757, 101512,
    105705, 110375, 115547, 121235, 127414, 134031, 141047, 148443, 156198, 164312, 172801, 181655, 190844,
    200349, 210142, 220191, 230490, 241021, 251752, 262648, 273683, 284826, 296077, 307436, 318892, 330418,
    341963, 353471, 364903, 376225, 387415, 398481, 409400, 420120, 430598, 440799, 450684, 460254, 469511,
    478444, 487061, 495372, 503345, 510981, 518293, 525276, 531938, 538319, 544430, 550291, 555929, 561330,
    566472, 571363, 575990, 580352, 584485, 588400, 592100, 595617, 598954, 602103, 605079, 607880, 610494,
    612926, 615168, 617214, 619084, 620773, 622269, 623602, 624807, 625919, 626983, 628050, 629135, 630269,
    631458, 632704, 634029, 635463, 636974, 638535, 640113, 641670, 643159, 644582, 645926, 647191, 648359,
    649408, 650311, 651073, 651709, 652249, 652711, 653110, 653449, 653734, 653950, 654111, 654242, 654358,
    654470, 654599, 654745, 654915, 655127, 655376, 655664, 656026, 656450, 656907, 657392, 657892, 658369,
    658809, 659203, 659541, 659831, 660072, 660223, 660286, 660268, 660163, 659977, 659758, 659509, 659234,
    658941, 658629, 658301, 658009, 657789, 657654, 657615, 657675, 657804, 657988, 658223, 658493, 658781,
    659090, 659395, 659677, 659928, 660158, 660346, 660493, 660605, 660691, 660769, 660857, 660942, 661013,
    661075, 661128, 661169, 661224, 661312, 661429, 661566, 661725, 661901, 662100, 662331, 662588, 662862,
    663148, 663438, 663725, 664015, 664306, 664581, 664827, 665038, 665209, 665339, 665444, 665534, 665604,
    665671, 665756, 665853, 665972, 666133, 666329, 666560, 666844, 667176, 667552, 667973, 668402, 668811,
    669212, 669602, 669959, 670290, 670597, 670864, 671071, 671221, 671319, 671382, 671408, 671404, 671371,
    671304, 671187, 671040, 670880, 670721, 670584, 670487, 670419, 670378, 670359, 670362, 670409, 670511,
    670645, 670796, 670950, 671076, 671146, 671174, 671169, 671133, 671061, 670952, 670808, 670637, 670441,
    670241, 670053, 669883, 669726, 669587, 669443, 669272, 669063, 668844, 668632, 668458, 668346, 668307,
    668326, 668392, 668510, 668710, 669008, 669394, 669837, 670283, 670612, 670871, 671101, 671307, 671493,
    671745, 671963, 672163, 672366, 672582, 672836, 673150, 673508, 673888, 674283, 674689, 675103, 675525,
    675951, 676380, 676810, 677238, 677666, 678109, 678573, 679083, 679671, 680346, 681093, 681900, 682734,
    683556, 684358, 685145, 685924, 686703, 687470, 688197, 688876, 689522, 690160, 690888, 691667, 692464,
    693278, 694111, 694861, 695610, 696359, 697106, 697852, 698597, 699340, 700083, 700825, 701566, 702306,
    703045, 703783, 704519, 705255, 705989, 706723, 707455, 708186, 708916, 709646, 710374, 711101, 711827,
    712551, 713275, 713998, 714719, 715440, 716159, 716877, 717594, 718310, 719025, 719739, 720452, 721163,
    721874, 722583, 723299, 724013, 724726, 725437, 726147, 726855, 727562, 728268, 728971, 729674, 730375,
    731074, 731772, 732468, 733163, 733857, 734549, 735238, 735927]
  len := by decide +kernel

/-- `CES39` (hpp:3682-3722). -/
def CES39 : Table where
  scale := 6
  m := [
    45658, 45673, 45687, 45702, 45716, 45731, 45745, 45760, 45775, 45789, 45804, 45818, 45833, 45848, 45862,
    45877, 45892, 45906, 45921, 45935, 46062, 46028, 46002, 45984, 45973, 45969, 45973, 45984, 46003, 46029,
    46062, 46102, 46150, 46204, 46266, 46335, 46411, 46494, 46583, 46680, 46783, 46894, 47011, 47135, 47267,
    47407, 47554, 47710, 47873, 48045, 48226, 48415, 48613, 48817, 49029, 49246, 49468, 49694, 49923, 50156,
    50390, 50626, 50863, 51104, 51349, 51600, 51857, 52120, 52393, 52674, 52966, 53269, 53579, 53894, 54211,
    54526, 54835, 55136, 55425, 55699, 55954, 56189, 56405, 56607, 56798, 56981, 57161, 57340, 57523, 57712,
    57912, 58128, 58366, 58638, 58952, 59317, 59743, 60239, 60814, 61478, 62240, 63106, 64068, 65115, 66236,
    67419, 68654, 69929, 71234, 72556, 73885, 75210, 76522, 77815, 79079, 80307, 81491, 82624, 83697, 84702,
    85632, 86481, 87252, 87950, 88583, 89155, 89671, 90138, 90562, 90947, 91299, 91623, 91916, 92172, 92386,
    92555, 92672, 92734, 92735, 92671, 92536, 92328, 92051, 91710, 91311, 90859, 90359, 89818, 89242, 88634,
    88002, 87350, 86682, 86000, 85308, 84608, 83903, 83197, 82492, 81791, 81098, 80414, 79739, 79073, 78415,
    77765, 77122, 76485, 75854, 75227, 74606, 73989, 73381, 72785, 72206, 71650, 71120, 70620, 70156, 69731,
    69350, 69017, 68730, 68485, 68279, 68110, 67974, 67868, 67790, 67735, 67702, 67687, 67692, 67718, 67766,
    67839, 67939, 68066, 68222, 68409, 68629, 68883, 69167, 69481, 69820, 70182, 70564, 70963, 71377, 71802,
    72236, 72675, 73118, 73562, 74003, 74440, 74869, 75289, 75695, 76087, 76461, 76815, 77149, 77465, 77763,
    78045, 78312, 78564, 78802, 79028, 79243, 79447, 79641, 79826, 80001, 80168, 80327, 80479, 80623, 80760,
    80892, 81017, 81138, 81252, 81362, 81467, 81567, 81662, 81753, 81840, 81922, 82001, 82079, 82158, 82240,
    82329, 82426, 82535, 82657, 82795, 82953, 83131, 83327, 83541, 83770, 84011, 84262, 84520, 84785, 85053,
    85323, 85591, 85856, 86116, 86368, 86610, 86840, 87055, 87253, 87432, 87590, 87725, 87838, 87931, 88007,
    88068, 88115, 88150, 88176, 88195, 88208, 88218, 88224, 88228, 88229, 88229, 88227, 88223, 88219, 88213,
    88208, 88203, 88197, 88191, 88184, 88175, 88166, 88154, 88140, 88124, 88105, 88083, 88057, 88028, 87995,
    87957, 87915, 87868, 87815, 87757, 87693, 87727, 87694, 87661, 87629, 87596, 87563, 87530, 87497, 87464,
    87432, 87399, 87366, 87333, 87301, 87268, 87235, 87203, 87170, 87137, 87105, 87072, 87039, 87007, 86974,
    86941, 86909, 86876, 86844, 86811, 86779, 86746, 86713, 86681, 86648, 86616, 86583, 86551, 86519, 86486,
    86454, 86421, 86389, 86356, 86324, 86292, 86259, 86227, 86195, 86162, 86130, 86098, 86065, 86033, 86001,
    85968, 85936, 85904, 85872, 85839, 85807, 85775, 85743, 85711, 85678, 85646, 85614, 85582, 85550, 85518,
    85485, 85453, 85421, 85389, 85357, 85325, 85293, 85261, 85229, 85197]
  len := by decide +kernel

/-- `CES40` (hpp:3723-3763). -/
def CES40 : Table where
  scale := 6
  m := [
    75004, 75007, 75009, 75011, 75014, 75016, 75018, 75020, 75023, 75025, 75027, 75030, 75032, 75034, 75036,
    75039, 75041, 75043, 75046, 75048, 75224, 75152, 75091, 75041, 75004, 74977, 74963, 74959, 74968, 74987,
    75018, 75060, 75114, 75179, 75255, 75342, 75441, 75550, 75671, 75803, 75945, 76099, 76264, 76441, 76628,
    76828, 77039, 77263, 77498, 77746, 78006, 78279, 78565, 78863, 79174, 79498, 79834, 80183, 80544, 80918,
    81304, 81703, 82117, 82548, 82999, 83472, 83969, 84493, 85047, 85631, 86250, 86903, 87580, 88269, 88959,
    89637, 90291, 90910, 91481, 91993, 92433, 92794, 93087, 93326, 93528, 93707, 93880, 94060, 94264, 94507,
    94803, 95171, 95639, 96236, 96992, 97937, 99101, 100510, 102210, 104210, 106550, 109250, 112280, 115610,
    119200, 123020, 127030, 131200, 135480, 139850, 144270, 148700, 153120, 157520, 161870, 166170, 170370,
    174480, 178470, 182310, 186000, 189510, 192860, 196050, 199080, 201980, 204740, 207380, 209900, 212320,
    214650, 216880, 218990, 220960, 222760, 224350, 225710, 226810, 227620, 228110, 228250, 228020, 227440,
    226550, 225370, 223930, 222260, 220400, 218370, 216200, 213930, 211570, 209150, 206670, 204140, 201580,
    198990, 196390, 193770, 191170, 188580, 186010, 183460, 180940, 178440, 175960, 173500, 171060, 168630,
    166230, 163840, 161480, 159140, 156840, 154610, 152440, 150360, 148370, 146490, 144740, 143130, 141670,
    140350, 139160, 138100, 137160, 136330, 135610, 134970, 134430, 133960, 133570, 133250, 133020, 132880,
    132860, 132940, 133140, 133480, 133960, 134580, 135360, 136280, 137330, 138500, 139780, 141150, 142610,
    144140, 145720, 147360, 149020, 150710, 152410, 154110, 155790, 157460, 159080, 160660, 162190, 163640,
    165010, 166310, 167540, 168700, 169800, 170840, 171830, 172780, 173690, 174560, 175400, 176210, 176990,
    177740, 178460, 179140, 179800, 180420, 181010, 181570, 182090, 182590, 183060, 183500, 183910, 184300,
    184680, 185030, 185370, 185690, 186000, 186310, 186610, 186930, 187250, 187600, 187970, 188370, 188810,
    189300, 189830, 190410, 191040, 191690, 192380, 193100, 193830, 194580, 195340, 196100, 196860, 197610,
    198350, 199070, 199760, 200420, 201040, 201610, 202130, 202590, 202980, 203320, 203590, 203820, 204000,
    204130, 204230, 204290, 204330, 204340, 204340, 204310, 204270, 204210, 204130, 204040, 203930, 203810,
    203670, 203520, 203350, 203170, 202980, 202770, 202540, 202300, 202040, 201760, 201460, 201150, 200810,
    200460, 200080, 199680, 199270, 198820, 198360, 197870, 197360, 196820, 196780, 196390, 196010, 195620,
    195240, 194860, 194470, 194090, 193710, 193330, 192950, 192570, 192190, 191810, 191440, 191060, 190680,
    190310, 189930, 189560, 189180, 188810, 188430, 188060, 187690, 187320, 186950, 186580, 186210, 185840,
    185470, 185100, 184730, 184370, 184000, 183640, 183270, 182910, 182540, 182180, 181810, 181450, 181090,
    180730, 180370, 180010, 179650, 179290, 178930, 178570, 178220, 177860, 177500, 177150, 176790, 176440,
    176080, 175730, 175380, 175020, 174670, 174320, 173970, 173620, 173270, 172920, 172570, 172230, 171880,
    171530, 171190, 170840, 170490, 170150, 169810, 169460, 169120, 168780, 168440]
  len := by decide +kernel

/-- `CES41` (hpp:3764-3804). -/
def CES41 : Table where
  scale := 6
  m := [
    379730, 381200, 382680, 384160, 385630, 387120, 388600, 390080, 391570, 393060, 394550, 396040, 397540,
    399040, 400530, 402040, 403540, 405040, 406550, 408060, 409800, 410940, 412370, 414020, 415830, 417750,
    419720, 421680, 423560, 425330, 426900, 428250, 429390, 430390, 431270, 432090, 432890, 433720, 434610,
    435630, 436800, 438170, 439730, 441480, 443390, 445460, 447670, 450010, 452470, 455040, 457700, 460440,
    463270, 466190, 469200, 472310, 475520, 478840, 482280, 485830, 489500, 493300, 497220, 501280, 505460,
    509770, 514220, 518790, 523490, 528330, 533300, 538400, 543630, 548970, 554420, 559960, 565590, 571300,
    577080, 582910, 588800, 594720, 600680, 606640, 612600, 618540, 624450, 630320, 636120, 641860, 647500,
    653040, 658470, 663770, 668940, 673960, 678830, 683530, 688040, 692370, 696500, 700420, 704130, 707620,
    710910, 713980, 716850, 719500, 721940, 724180, 726200, 728020, 729630, 731050, 732290, 733360, 734260,
    735010, 735610, 736070, 736400, 736610, 736710, 736700, 736590, 736380, 736090, 735720, 735280, 734770,
    734200, 733580, 732900, 732180, 731420, 730610, 729770, 728890, 727990, 727060, 726100, 725120, 724130,
    723110, 722070, 721020, 719950, 718860, 717760, 716640, 715500, 714350, 713190, 712020, 710840, 709670,
    708500, 707330, 706170, 705030, 703900, 702790, 701700, 700640, 699610, 698600, 697630, 696690, 695790,
    694920, 694100, 693320, 692580, 691890, 691240, 690620, 690040, 689500, 689000, 688530, 688100, 687700,
    687320, 686970, 686630, 686300, 685980, 685650, 685320, 684970, 684600, 684210, 683790, 683360, 682900,
    682430, 681940, 681450, 680940, 680420, 679900, 679380, 678850, 678330, 677810, 677290, 676790, 676290,
    675810, 675350, 674900, 674470, 674070, 673690, 673330, 673000, 672700, 672430, 672190, 671980, 671800,
    671660, 671550, 671460, 671410, 671370, 671350, 671350, 671360, 671380, 671400, 671430, 671460, 671500,
    671560, 671640, 671740, 671870, 672040, 672250, 672500, 672800, 673160, 673580, 674070, 674640, 675290,
    676040, 676880, 677830, 678900, 680090, 681400, 682850, 684430, 686160, 688030, 690050, 692240, 694590,
    697100, 699790, 702640, 705660, 708840, 712180, 715660, 719290, 723060, 726960, 731000, 735160, 739440,
    743820, 748290, 752840, 757460, 762140, 766860, 771620, 776400, 781190, 785980, 790760, 795520, 800250,
    804930, 809560, 814120, 818600, 823000, 827300, 831500, 835590, 839570, 843430, 847180, 850810, 854300,
    857670, 860900, 863990, 866960, 869800, 872540, 875180, 877720, 880190, 882580, 884920, 887200, 889440,
    891610, 893700, 895680, 897540, 899240, 900770, 902100, 903220, 904100, 905490, 906650, 907810, 908950,
    910080, 911200, 912310, 913400, 914480, 915550, 916610, 917650, 918680, 919700, 920710, 921710, 922690,
    923670, 924630, 925580, 926520, 927450, 928370, 929280, 930180, 931060, 931940, 932810, 933660, 934510,
    935340, 936170, 936990, 937790, 938590, 939370, 940150, 940920, 941680, 942430, 943170, 943900, 944630,
    945340, 946040, 946740, 947430, 948110, 948780, 949450, 950100, 950750, 951390, 952020, 952640, 953260,
    953870, 954470, 955060, 955650, 956220, 956800, 957360, 957920, 958470, 959010, 959550, 960080, 960600,
    961120, 961630, 962130, 962630, 963120, 963600, 964080, 964560, 965020, 965480]
  len := by decide +kernel

/-- `CES42` (hpp:3805-3845). -/
def CES42 : Table where
  scale := 6
  m := [
    65979, 65857, 65736, 65615, 65494, 65373, 65252, 65132, 65012, 64892, 64772, 64652, 64533, 64414, 64295,
    64176, 64057, 63939, 63821, 63703, 63744, 63565, 63393, 63228, 63071, 62924, 62787, 62661, 62546, 62443,
    62354, 62279, 62218, 62172, 62143, 62131, 62137, 62161, 62205, 62269, 62354, 62460, 62587, 62732, 62894,
    63072, 63264, 63468, 63684, 63908, 64141, 64381, 64627, 64879, 65137, 65402, 65674, 65951, 66235, 66526,
    66822, 67125, 67437, 67760, 68095, 68445, 68812, 69199, 69607, 70038, 70496, 70981, 71499, 72052, 72645,
    73281, 73964, 74699, 75488, 76336, 77248, 78224, 79265, 80369, 81532, 82754, 84032, 85363, 86746, 88179,
    89659, 91185, 92763, 94398, 96095, 97861, 99702, 101620, 103630, 105730, 107930, 110230, 112670, 115260,
    118020, 120990, 124200, 127650, 131390, 135430, 139800, 144530, 149640, 155170, 161150, 167610, 174590,
    182100, 190190, 198880, 208210, 218200, 228810, 240000, 251740, 263990, 276700, 289820, 303330, 317180,
    331330, 345720, 360260, 374810, 389270, 403520, 417440, 430910, 443810, 456030, 467460, 477980, 487610,
    496350, 504220, 511240, 517410, 522770, 527330, 531090, 534080, 536320, 537850, 538710, 538950, 538610,
    537750, 536400, 534620, 532440, 529910, 527080, 523960, 520570, 516920, 513040, 508930, 504620, 500110,
    495430, 490590, 485610, 480500, 475290, 470000, 464660, 459270, 453870, 448470, 443100, 437770, 432510,
    427310, 422180, 417110, 412110, 407160, 402270, 397430, 392650, 387930, 383250, 378640, 374100, 369640,
    365270, 361010, 356870, 352850, 348970, 345230, 341650, 338220, 334940, 331790, 328770, 325880, 323090,
    320410, 317830, 315340, 312940, 310610, 308360, 306170, 304040, 301970, 299940, 297960, 296010, 294100,
    292200, 290330, 288480, 286640, 284800, 282970, 281150, 279310, 277480, 275630, 273770, 271890, 270020,
    268130, 266250, 264370, 262500, 260640, 258790, 256960, 255160, 253390, 251660, 249990, 248390, 246860,
    245430, 244090, 242870, 241770, 240810, 239980, 239300, 238770, 238400, 238190, 238150, 238280, 238590,
    239090, 239780, 240650, 241700, 242940, 244360, 245950, 247710, 249640, 251730, 253980, 256390, 258940,
    261580, 264310, 267090, 269900, 272710, 275500, 278230, 280890, 283450, 285910, 288260, 290510, 292670,
    294720, 296670, 298530, 300280, 301940, 303510, 305010, 306470, 307920, 309390, 310900, 312500, 314200,
    316030, 318030, 320210, 322600, 325190, 328000, 331030, 334290, 337790, 341540, 345540, 349800, 354330,
    359140, 364230, 369610, 375290, 381290, 387590, 394220, 401180, 408480, 409770, 415280, 420800, 426350,
    431910, 437490, 443090, 448700, 454320, 459960, 465600, 471260, 476920, 482590, 488260, 493940, 499610,
    505290, 510970, 516640, 522310, 527970, 533630, 539270, 544910, 550540, 556150, 561750, 567330, 572900,
    578450, 583970, 589480, 594960, 600420, 605860, 611270, 616650, 622010, 627330, 632620, 637890, 643120,
    648310, 653470, 658600, 663680, 668730, 673740, 678720, 683650, 688540, 693390, 698200, 702960, 707680,
    712360, 716990, 721570, 726110, 730600, 735050, 739450, 743800, 748100, 752360, 756570, 760730, 764830,
    768890, 772910, 776870, 780780, 784640, 788450, 792220, 795930, 799590, 803210]
  len := by decide +kernel

/-- `CES43` (hpp:3846-3886). -/
def CES43 : Table where
  scale := 6
  m := [
    88623, 87423, 86238, 85067, 83911, 82769, 81641, 80528, 79428, 78342, 77269, 76210, 75164, 74132, 73112,
    72106, 71112, 70131, 69162, 68206, 67100, 66418, 65564, 64569, 63462, 62275, 61038, 59781, 58536, 57332,
    56200, 55165, 54228, 53385, 52630, 51959, 51368, 50851, 50404, 50022, 49700, 49434, 49221, 49055, 48933,
    48850, 48804, 48790, 48804, 48842, 48900, 48975, 49070, 49187, 49330, 49502, 49705, 49943, 50220, 50538,
    50900, 51310, 51775, 52299, 52891, 53555, 54300, 55130, 56052, 57074, 58200, 59436, 60782, 62232, 63786,
    65439, 67189, 69033, 70969, 72992, 75100, 77297, 79611, 82078, 84734, 87613, 90751, 94183, 97945,
    102070, 106600, 111550, 116910, 122650, 128740, 135150, 141850, 148810, 156010, 163420, 171000, 178740,
    186680, 194840, 203280, 212030, 221130, 230630, 240560, 250970, 261900, 273370, 285320, 297680, 310360,
    323300, 336410, 349630, 362870, 376050, 389100, 401950, 414540, 426820, 438730, 450240, 461270, 471790,
    481730, 491050, 499700, 507630, 514870, 521430, 527340, 532630, 537330, 541460, 545040, 548120, 550700,
    552820, 554510, 555780, 556680, 557220, 557430, 557330, 556960, 556340, 555500, 554460, 553230, 551830,
    550260, 548540, 546670, 544670, 542560, 540330, 538000, 535580, 533080, 530490, 527820, 525060, 522240,
    519330, 516360, 513310, 510200, 507020, 503790, 500500, 497180, 493820, 490430, 487030, 483620, 480210,
    476800, 473410, 470030, 466670, 463340, 460020, 456740, 453480, 450250, 447060, 443900, 440780, 437690,
    434640, 431610, 428610, 425640, 422680, 419740, 416810, 413900, 410990, 408070, 405120, 402120, 399050,
    395890, 392630, 389240, 385700, 382000, 378130, 374110, 370000, 365820, 361630, 357470, 353370, 349380,
    345550, 341900, 338480, 335300, 332350, 329640, 327170, 324930, 322940, 321180, 319670, 318400, 317370,
    316550, 315930, 315460, 315120, 314880, 314720, 314610, 314510, 314400, 314260, 314080, 313870, 313630,
    313360, 313070, 312750, 312420, 312070, 311700, 311320, 310930, 310530, 310110, 309680, 309230, 308770,
    308300, 307810, 307300, 306770, 306170, 305460, 304580, 303490, 302130, 300470, 298440, 296000, 293100,
    289710, 285860, 281600, 276990, 272080, 266920, 261560, 256050, 250450, 244800, 239160, 233590, 228130,
    222840, 217770, 212980, 208510, 204420, 200770, 197600, 194960, 192810, 191120, 189850, 188940, 188360,
    188070, 188030, 188180, 188500, 188960, 189660, 190710, 192250, 194370, 197210, 200880, 205510, 211210,
    218100, 226230, 235360, 245180, 255390, 265670, 275710, 285200, 293830, 301310, 307300, 316930, 325300,
    333780, 342370, 351070, 359860, 368750, 377730, 386800, 395940, 405160, 414440, 423790, 433190, 442640,
    452130, 461650, 471210, 480780, 490370, 499970, 509560, 519150, 528730, 538280, 547800, 557300, 566740,
    576150, 585490, 594780, 603990, 613140, 622200, 631180, 640070, 648870, 657570, 666160, 674640, 683010,
    691260, 699390, 707400, 715280, 723040, 730660, 738150, 745500, 752710, 759790, 766720, 773520, 780170,
    786690, 793060, 799290, 805380, 811320, 817130, 822790, 828320, 833710, 838970, 844090, 849070, 853930,
    858650, 863240, 867710, 872060, 876280, 880380, 884370, 888230, 891990, 895630, 899170, 902590]
  len := by decide +kernel

/-- `CES44` (hpp:3887-3927). -/
def CES44 : Table where
  scale := 6
  m := [
    41634, 41743, 41853, 41964, 42074, 42185, 42296, 42408, 42520, 42632, 42744, 42857, 42969, 43083, 43196,
    43310, 43424, 43538, 43653, 43767, 43900, 43988, 44097, 44223, 44362, 44509, 44658, 44807, 44950, 45082,
    45200, 45299, 45381, 45449, 45503, 45548, 45585, 45616, 45644, 45671, 45700, 45732, 45767, 45805, 45845,
    45887, 45930, 45973, 46016, 46059, 46100, 46140, 46178, 46216, 46253, 46291, 46330, 46369, 46410, 46454,
    46500, 46549, 46600, 46653, 46707, 46761, 46814, 46865, 46913, 46959, 47000, 47037, 47069, 47097, 47120,
    47141, 47158, 47172, 47184, 47193, 47200, 47206, 47211, 47218, 47226, 47239, 47256, 47279, 47310, 47350,
    47400, 47461, 47532, 47612, 47699, 47792, 47890, 47991, 48094, 48197, 48300, 48401, 48500, 48598, 48695,
    48793, 48891, 48990, 49091, 49194, 49300, 49409, 49521, 49634, 49748, 49862, 49975, 50086, 50194, 50299,
    50400, 50496, 50586, 50670, 50750, 50823, 50891, 50952, 51008, 51057, 51100, 51137, 51167, 51191, 51209,
    51221, 51228, 51229, 51224, 51215, 51200, 51180, 51156, 51129, 51099, 51067, 51033, 50999, 50965, 50932,
    50900, 50870, 50843, 50816, 50789, 50762, 50734, 50705, 50673, 50638, 50600, 50558, 50512, 50463, 50412,
    50360, 50307, 50253, 50201, 50149, 50100, 50053, 50008, 49963, 49919, 49873, 49826, 49776, 49722, 49664,
    49600, 49530, 49456, 49378, 49299, 49221, 49145, 49074, 49008, 48949, 48900, 48861, 48833, 48812, 48799,
    48792, 48789, 48790, 48793, 48797, 48800, 48802, 48802, 48802, 48801, 48799, 48798, 48797, 48797, 48798,
    48800, 48804, 48809, 48814, 48819, 48823, 48825, 48825, 48821, 48813, 48800, 48782, 48760, 48735, 48709,
    48683, 48658, 48636, 48618, 48605, 48600, 48603, 48613, 48630, 48654, 48684, 48719, 48759, 48803, 48850,
    48900, 48952, 49007, 49063, 49121, 49181, 49242, 49305, 49369, 49434, 49500, 49567, 49635, 49703, 49773,
    49842, 49913, 49984, 50056, 50128, 50200, 50273, 50346, 50421, 50497, 50574, 50654, 50736, 50821, 50909,
    51000, 51095, 51193, 51293, 51394, 51497, 51600, 51703, 51804, 51903, 52000, 52094, 52183, 52269, 52349,
    52424, 52494, 52556, 52612, 52660, 52700, 52732, 52755, 52770, 52779, 52780, 52775, 52764, 52748, 52726,
    52700, 52670, 52636, 52598, 52559, 52517, 52474, 52431, 52387, 52343, 52300, 52259, 52219, 52181, 52146,
    52113, 52084, 52057, 52034, 52015, 52000, 51975, 51954, 51933, 51912, 51891, 51870, 51849, 51828, 51807,
    51787, 51766, 51745, 51724, 51703, 51682, 51661, 51640, 51620, 51599, 51578, 51557, 51536, 51516, 51495,
    51474, 51453, 51432, 51412, 51391, 51370, 51349, 51329, 51308, 51287, 51266, 51246, 51225, 51204, 51184,
    51163, 51142, 51122, 51101, 51080, 51060, 51039, 51019, 50998, 50977, 50957, 50936, 50916, 50895, 50875,
    50854, 50833, 50813, 50792, 50772, 50751, 50731, 50710, 50690, 50669, 50649, 50628, 50608, 50588, 50567,
    50547, 50526, 50506, 50485, 50465, 50445, 50424, 50404, 50383, 50363]
  len := by decide +kernel

/-- `CES45` (hpp:3928-3968). -/
def CES45 : Table where
  scale := 6
  m := [
    55400, 54600, 55000, 55186, 55200, 55186, 55257, 55314, 55643, 55871, 56086, 56300, 56586, 57043, 57243,
    57229, 57486, 57700, 57643, 57657, 57600, 57557, 57600, 57500, 57500, 57729, 57843, 57771, 57986, 58171,
    58414, 58586, 58786, 58814, 58914, 59000, 59400, 59771, 60100, 60300, 60757, 61257, 61543, 61614, 61714,
    61814, 62186, 62600, 62800, 63186, 63643, 63914, 64200, 64529, 64857, 65357, 65814, 66214, 66914, 67686,
    68414, 69000, 69500, 69929, 70371, 70629, 71086, 71429, 72000, 72571, 73329, 74300, 75400, 76157, 77257,
    78314, 79414, 80586, 81957, 83143, 84700, 86186, 87786, 89543, 91457, 93114, 95071, 97029, 99043,
    101030, 103130, 105110, 107410, 109890, 112530, 115230, 118230, 121060, 124030, 127270, 130640, 133810,
    137600, 141240, 145270, 149610, 154060, 158330, 163340, 168230, 173590, 179030, 184700, 190410, 197200,
    203690, 210590, 217630, 225070, 232260, 239960, 246900, 254090, 260840, 267790, 274140, 280800, 286870,
    293000, 298660, 304430, 309260, 314010, 318200, 322060, 325370, 328490, 330900, 333590, 335910, 337560,
    338990, 340490, 341370, 342070, 342530, 342740, 343060, 343040, 342700, 342390, 342090, 341230, 340210,
    339040, 337970, 336630, 335330, 333590, 332010, 330440, 328910, 326910, 325290, 323240, 321470, 319940,
    318460, 316270, 314500, 312290, 309900, 307460, 305000, 301890, 299140, 295790, 292490, 289700, 287400,
    284790, 283070, 281410, 279760, 277810, 276390, 274310, 271860, 269010, 266140, 263070, 260570, 257590,
    254260, 251290, 248610, 245660, 243090, 240190, 237160, 234260, 231210, 227860, 225040, 222190, 219430,
    216690, 213960, 211170, 208630, 205760, 202740, 199610, 196730, 193800, 191140, 188630, 186200, 183970,
    182090, 179900, 177960, 176170, 174460, 172870, 171590, 170070, 169060, 168160, 167030, 165710, 164740,
    163670, 162600, 161490, 160470, 159630, 159070, 158430, 157790, 157390, 156940, 156270, 155600, 155030,
    154540, 154310, 154100, 153660, 153610, 153640, 153410, 153200, 152810, 152260, 152040, 151700, 151170,
    150730, 150460, 150240, 150300, 150290, 150230, 150330, 150390, 150390, 150470, 150440, 150390, 150370,
    150330, 150210, 150100, 150240, 150410, 150590, 150900, 151530, 151960, 152340, 152490, 152800, 153200,
    153590, 153670, 154730, 155910, 157100, 158130, 159240, 160410, 161730, 162530, 163230, 163940, 164700,
    165360, 166100, 166840, 167370, 167860, 168470, 168960, 169030, 169140, 169600, 170600, 171470, 172300,
    173300, 174660, 175840, 176660, 177040, 177730, 178400, 178940, 179500, 179830, 179870, 180130, 180200,
    179940, 180000, 180200, 180260, 180540, 180500, 180300, 180000, 179730, 179160, 178590, 178060, 177730,
    177370, 177100, 176500, 175960, 175860, 175700, 175460, 175540, 175990, 176440, 177060, 177460, 177810,
    178170, 178470, 178610, 179040, 179690, 180370, 181160, 182230, 183390, 184770, 186160, 187470, 188760,
    190410, 192030, 193640, 195260, 196870, 198470, 200300, 201930, 203190, 204490, 205740, 206890, 208140,
    209300, 210270, 211340, 212340, 213130, 214070, 214970, 215810, 216630, 217670, 218640, 219730, 220490,
    220460, 220200, 219970, 219500, 218790, 218070, 217660, 217840, 218110, 218400, 218340, 218670]
  len := by decide +kernel

/-- `CES46` (hpp:3969-4009). -/
def CES46 : Table where
  scale := 6
  m := [
    99822, 100420, 101030, 101640, 102250, 102870, 103490, 104110, 104730, 105360, 105990, 106630, 107270,
    107910, 108560, 109200, 109860, 110510, 111170, 111830, 112600, 113110, 113750, 114480, 115290, 116150,
    117030, 117890, 118730, 119510, 120200, 120790, 121280, 121680, 122020, 122310, 122560, 122790, 123010,
    123250, 123500, 123790, 124120, 124480, 124880, 125320, 125790, 126300, 126830, 127400, 128000, 128630,
    129290, 129990, 130740, 131520, 132350, 133230, 134160, 135150, 136200, 137310, 138490, 139740, 141060,
    142450, 143930, 145490, 147130, 148870, 150700, 152630, 154660, 156790, 159040, 161410, 163900, 166520,
    169270, 172160, 175200, 178380, 181720, 185200, 188830, 192610, 196530, 200600, 204820, 209190, 213700,
    218350, 223140, 228060, 233090, 238220, 243450, 248760, 254150, 259600, 265100, 270640, 276210, 281790,
    287350, 292890, 298380, 303800, 309140, 314380, 319500, 324490, 329330, 334030, 338580, 342970, 347200,
    351260, 355150, 358870, 362400, 365750, 368920, 371900, 374710, 377350, 379810, 382100, 384230, 386200,
    388000, 389650, 391140, 392490, 393700, 394770, 395710, 396530, 397230, 397820, 398300, 398680, 398960,
    399160, 399270, 399310, 399280, 399190, 399040, 398840, 398600, 398320, 398000, 397650, 397260, 396820,
    396340, 395820, 395260, 394650, 394000, 393300, 392550, 391760, 390920, 390030, 389100, 388120, 387090,
    386020, 384900, 383740, 382530, 381280, 380010, 378700, 377370, 376020, 374660, 373280, 371900, 370510,
    369120, 367730, 366320, 364900, 363460, 362010, 360530, 359030, 357500, 355940, 354350, 352730, 351070,
    349380, 347650, 345880, 344060, 342200, 340300, 338350, 336350, 334290, 332180, 330000, 327760, 325460,
    323080, 320630, 318100, 315490, 312810, 310080, 307290, 304470, 301630, 298760, 295900, 293040, 290200,
    287390, 284610, 281880, 279190, 276560, 273980, 271470, 269040, 266680, 264400, 262210, 260110, 258100,
    256170, 254330, 252560, 250880, 249280, 247750, 246300, 244920, 243620, 242370, 241180, 240040, 238950,
    237890, 236870, 235880, 234900, 233940, 233000, 232070, 231150, 230250, 229370, 228500, 227650, 226820,
    226000, 225200, 224410, 223650, 222900, 222180, 221470, 220790, 220140, 219510, 218900, 218320, 217770,
    217260, 216770, 216330, 215920, 215550, 215220, 214940, 214700, 214510, 214370, 214270, 214220, 214220,
    214250, 214330, 214450, 214610, 214800, 215030, 215300, 215600, 215920, 216280, 216660, 217070, 217490,
    217940, 218400, 218880, 219370, 219880, 220420, 220980, 221560, 222170, 222810, 223490, 224200, 224940,
    225710, 226490, 227250, 227990, 228690, 229340, 229920, 230410, 230800, 231420, 231950, 232490, 233020,
    233560, 234090, 234630, 235160, 235700, 236240, 236780, 237320, 237860, 238410, 238950, 239490, 240040,
    240580, 241130, 241680, 242230, 242770, 243320, 243880, 244430, 244980, 245530, 246090, 246640, 247200,
    247750, 248310, 248870, 249430, 249990, 250550, 251110, 251670, 252240, 252800, 253370, 253930, 254500,
    255070, 255640, 256210, 256780, 257350, 257920, 258490, 259060, 259640, 260210, 260790, 261370, 261940,
    262520, 263100, 263680, 264260, 264840, 265420, 266010, 266590, 267180, 267760, 268350, 268940, 269520,
    270110, 270700, 271290, 271880, 272480, 273070, 273660, 274260, 274850, 275450]
  len := by decide +kernel

/-- `CES47` (hpp:4010-4050). -/
def CES47 : Table where
  scale := 6
  m := [
    142540, 142640, 142740, 142840, 142950, 143050, 143150, 143250, 143350, 143460, 143560, 143660, 143760,
    143870, 143970, 144070, 144170, 144280, 144380, 144480, 144600, 144680, 144770, 144890, 145010, 145140,
    145280, 145420, 145550, 145680, 145800, 145910, 146010, 146130, 146280, 146460, 146690, 146990, 147360,
    147830, 148400, 149080, 149880, 150790, 151810, 152940, 154170, 155500, 156940, 158470, 160100, 161820,
    163640, 165560, 167580, 169700, 171930, 174280, 176730, 179310, 182000, 184820, 187760, 190830, 194030,
    197370, 200850, 204460, 208230, 212140, 216200, 220420, 224790, 229320, 234010, 238860, 243870, 249050,
    254400, 259910, 265600, 271460, 277480, 283670, 290010, 296500, 303130, 309900, 316810, 323840, 331000,
    338270, 345630, 353050, 360520, 368000, 375480, 382920, 390310, 397610, 404800, 411860, 418750, 425450,
    431910, 438110, 444010, 449590, 454800, 459610, 464000, 467930, 471420, 474470, 477100, 479330, 481160,
    482610, 483690, 484410, 484800, 484860, 484620, 484090, 483310, 482290, 481060, 479650, 478060, 476340,
    474500, 472560, 470540, 468430, 466260, 464020, 461730, 459400, 457020, 454620, 452200, 449760, 447320,
    444870, 442410, 439950, 437490, 435030, 432580, 430130, 427700, 425280, 422870, 420480, 418120, 415770,
    413460, 411170, 408910, 406690, 404500, 402350, 400240, 398170, 396130, 394120, 392150, 390200, 388270,
    386380, 384500, 382650, 380810, 379000, 377210, 375430, 373680, 371960, 370250, 368560, 366900, 365260,
    363640, 362050, 360480, 358950, 357450, 355980, 354550, 353150, 351800, 350490, 349220, 348010, 346850,
    345750, 344710, 343750, 342850, 342040, 341300, 340650, 340070, 339560, 339110, 338700, 338330, 337980,
    337650, 337330, 337000, 336660, 336300, 335910, 335500, 335060, 334580, 334060, 333490, 332870, 332200,
    331470, 330690, 329860, 328990, 328080, 327140, 326180, 325200, 324200, 323200, 322200, 321210, 320250,
    319330, 318480, 317690, 317000, 316410, 315940, 315600, 315410, 315380, 315530, 315850, 316360, 317070,
    317990, 319120, 320490, 322100, 323960, 326060, 328430, 331060, 333950, 337100, 340540, 344240, 348230,
    352500, 357060, 361900, 367020, 372420, 378090, 384020, 390230, 396700, 403420, 410400, 417630, 425100,
    432800, 440710, 448840, 457160, 465670, 474350, 483200, 492200, 501340, 510610, 519980, 529440, 538970,
    548540, 558130, 567740, 577340, 586900, 596420, 605870, 615250, 624550, 633750, 642840, 651810, 660660,
    669360, 677900, 686280, 694510, 702590, 710530, 718340, 726030, 733620, 741100, 748490, 755800, 763020,
    770090, 776930, 783450, 789580, 795230, 800330, 804800, 808550, 811500, 816070, 819910, 823700, 827420,
    831070, 834670, 838200, 841680, 845090, 848440, 851730, 854970, 858140, 861260, 864310, 867320, 870260,
    873150, 875980, 878760, 881490, 884160, 886780, 889350, 891870, 894330, 896750, 899120, 901440, 903710,
    905930, 908110, 910240, 912330, 914380, 916380, 918340, 920250, 922130, 923960, 925760, 927510, 929230,
    930910, 932560, 934160, 935730, 937270, 938770, 940240, 941680, 943080, 944450, 945790, 947100, 948380,
    949630, 950850, 952040, 953210, 954350, 955460, 956550, 957610, 958640, 959660, 960640, 961610, 962550,
    963470, 964370, 965250, 966100, 966940, 967760, 968550, 969330, 970090, 970830]
  len := by decide +kernel

/-- `CES48` (hpp:4051-4091). -/
def CES48 : Table where
  scale := 6
  m := [
    87762, 87867, 87989, 88125, 88273, 88432, 88600, 88775, 88955, 89139, 89325, 89511, 89695, 89875, 90050,
    90218, 90377, 90525, 90661, 90783, 90888, 90977, 91058, 91138, 91228, 91335, 91469, 91639, 91853, 92121,
    92451, 92856, 93362, 93998, 94796, 95783, 96990, 98446, 100180, 102230, 104610, 107350, 110440, 113850,
    117560, 121540, 125770, 130230, 134890, 139740, 144740, 149880, 155150, 160560, 166110, 171790, 177610,
    183560, 189660, 195890, 202270, 208790, 215440, 222220, 229130, 236160, 243300, 250550, 257910, 265370,
    272920, 280560, 288260, 296010, 303770, 311530, 319260, 326930, 334530, 342030, 349400, 356630, 363710,
    370650, 377440, 384080, 390580, 396940, 403150, 409230, 415160, 420950, 426610, 432140, 437540, 442820,
    447980, 453020, 457960, 462800, 467530, 472170, 476710, 481150, 485480, 489710, 493830, 497840, 501740,
    505520, 509180, 512720, 516150, 519470, 522690, 525830, 528880, 531860, 534770, 537620, 540420, 543180,
    545890, 548570, 551220, 553830, 556410, 558960, 561480, 563980, 566460, 568920, 571350, 573740, 576090,
    578380, 580600, 582750, 584820, 586790, 588660, 590420, 592080, 593630, 595100, 596480, 597790, 599020,
    600190, 601300, 602360, 603370, 604340, 605240, 606070, 606830, 607510, 608090, 608570, 608950, 609210,
    609350, 609350, 609230, 608970, 608570, 608020, 607320, 606460, 605450, 604270, 602930, 601420, 599770,
    597980, 596070, 594030, 591890, 589640, 587310, 584900, 582420, 579860, 577200, 574450, 571590, 568600,
    565480, 562210, 558800, 555210, 551450, 547530, 543470, 539270, 534950, 530530, 526020, 521440, 516800,
    512110, 507390, 502640, 497860, 493050, 488210, 483330, 478430, 473500, 468530, 463540, 458520, 453470,
    448400, 443320, 438240, 433160, 428080, 423030, 417990, 412980, 408000, 403060, 398160, 393290, 388460,
    383660, 378900, 374180, 369500, 364860, 360260, 355700, 351190, 346720, 342310, 337960, 333670, 329430,
    325270, 321170, 317140, 313190, 309310, 305500, 301770, 298110, 294520, 291010, 287570, 284200, 280910,
    277690, 274540, 271450, 268440, 265490, 262600, 259770, 257000, 254290, 251630, 249030, 246490, 244010,
    241580, 239220, 236920, 234680, 232510, 230400, 228360, 226380, 224460, 222600, 220800, 219050, 217340,
    215680, 214060, 212480, 210940, 209430, 207950, 206520, 205110, 203740, 202410, 201110, 199850, 198620,
    197430, 196270, 195140, 194050, 193000, 191980, 191000, 190050, 189140, 188270, 187430, 186640, 185870,
    185140, 184440, 183770, 183130, 182520, 181930, 181370, 180830, 180320, 179830, 179370, 178930, 178520,
    178130, 177770, 177440, 177130, 176850, 176600, 176370, 176170, 175990, 175850, 175720, 175620, 175550,
    175500, 175470, 175470, 175500, 175550, 175640, 175750, 175890, 176070, 176280, 176520, 176800, 177120,
    177470, 177860, 178300, 178770, 179290, 179850, 180460, 181110, 180880, 181270, 181650, 182040, 182430,
    182810, 183200, 183590, 183980, 184370, 184760, 185150, 185540, 185940, 186330, 186720, 187120, 187510,
    187910, 188310, 188700, 189100, 189500, 189900, 190300, 190700, 191100, 191500, 191900, 192300, 192710,
    193110, 193520, 193920, 194330, 194730, 195140, 195550, 195960, 196370, 196780, 197190, 197600, 198010,
    198420, 198840, 199250, 199660, 200080]
  len := by decide +kernel

/-- `CES49` (hpp:4092-4132). -/
def CES49 : Table where
  scale := 6
  m := [
    572, 1977, 3359, 4720, 6063, 7391, 8705, 10009, 11306, 12597, 13886, 15175, 16466, 17763, 19067, 20382,
    21709, 23052, 24413, 25795, 27200, 28628, 30069, 31511, 32939, 34341, 35705, 37017, 38265, 39434, 40514,
    41493, 42373, 43157, 43851, 44457, 44981, 45426, 45796, 46095, 46328, 46499, 46618, 46693, 46734, 46751,
    46754, 46751, 46753, 46769, 46809, 46880, 46984, 47119, 47286, 47482, 47709, 47964, 48247, 48557, 48894,
    49257, 49650, 50074, 50533, 51029, 51566, 52147, 52774, 53451, 54181, 54967, 55814, 56730, 57720, 58791,
    59950, 61203, 62555, 64014, 65586, 67276, 69086, 71017, 73068, 75241, 77536, 79953, 82494, 85159, 87948,
    90861, 93892, 97036, 100280, 103630, 107070, 110600, 114210, 117880, 121630, 125430, 129280, 133140,
    137010, 140870, 144680, 148440, 152130, 155730, 159210, 162560, 165790, 168880, 171850, 174690, 177400,
    179990, 182450, 184790, 187010, 189110, 191080, 192930, 194660, 196270, 197750, 199100, 200330, 201430,
    202410, 203260, 203980, 204580, 205060, 205420, 205660, 205790, 205810, 205730, 205530, 205230, 204840,
    204350, 203780, 203130, 202410, 201620, 200780, 199890, 198950, 197970, 196960, 195900, 194820, 193690,
    192530, 191330, 190100, 188840, 187540, 186210, 184840, 183450, 182020, 180560, 179070, 177540, 175990,
    174410, 172790, 171150, 169470, 167780, 166080, 164360, 162630, 160900, 159170, 157450, 155740, 154040,
    152360, 150700, 149050, 147410, 145800, 144190, 142600, 141030, 139470, 137930, 136400, 134900, 133420,
    131970, 130540, 129160, 127810, 126500, 125230, 124010, 122830, 121690, 120590, 119510, 118470, 117450,
    116450, 115460, 114490, 113530, 112570, 111630, 110690, 109770, 108860, 107960, 107060, 106190, 105320,
    104470, 103630, 102800, 101990, 101200, 100420, 99663, 98923, 98203, 97504, 96826, 96171, 95540, 94935,
    94355, 93804, 93282, 92790, 92329, 91902, 91508, 91149, 90824, 90532, 90275, 90052, 89862, 89707, 89585,
    89497, 89442, 89419, 89424, 89455, 89510, 89585, 89679, 89789, 89911, 90044, 90185, 90335, 90493, 90661,
    90838, 91025, 91222, 91430, 91649, 91879, 92121, 92374, 92636, 92907, 93185, 93470, 93759, 94053, 94350,
    94649, 94949, 95249, 95548, 95846, 96143, 96438, 96729, 97017, 97302, 97581, 97855, 98125, 98392, 98656,
    98917, 99178, 99439, 99700, 99963, 100230, 100500, 100770, 101050, 101340, 101640, 101950, 102280,
    102620, 102980, 103360, 103760, 104180, 104620, 105070, 105530, 105990, 106470, 106940, 107420, 107890,
    108360, 108820, 109280, 109730, 110190, 110640, 111090, 111550, 112000, 112460, 112920, 113390, 113860,
    114350, 114840, 115350, 115880, 116420, 116980, 117570, 118180, 118820, 119480, 120170, 120900, 121660,
    122460, 123290, 124170, 125090, 125350, 126070, 126790, 127520, 128250, 128980, 129720, 130460, 131200,
    131950, 132700, 133450, 134210, 134970, 135740, 136510, 137280, 138060, 138840, 139620, 140410, 141200,
    141990, 142790, 143590, 144400, 145210, 146020, 146840, 147660, 148490, 149320, 150150, 150980, 151820,
    152670, 153520, 154370, 155220, 156080, 156950, 157810, 158680, 159560, 160440, 161320, 162210, 163100,
    163990]
  len := by decide +kernel

/-- `CES50` (hpp:4133-4173). -/
def CES50 : Table where
  scale := 6
  m := [
    78830, 79503, 80181, 80865, 81553, 82247, 82947, 83652, 84362, 85077, 85799, 86525, 87258, 87996, 88739,
    89488, 90243, 91004, 91770, 92542, 93385, 94134, 94898, 95675, 96464, 97266, 98079, 98902, 99734,
    100570, 101420, 102280, 103140, 104010, 104880, 105750, 106630, 107510, 108390, 109280, 110160, 111040,
    111920, 112800, 113690, 114580, 115480, 116390, 117310, 118240, 119190, 120150, 121130, 122120, 123120,
    124130, 125150, 126180, 127220, 128260, 129310, 130360, 131420, 132490, 133570, 134670, 135780, 136920,
    138090, 139290, 140520, 141790, 143090, 144420, 145770, 147140, 148530, 149920, 151320, 152720, 154120,
    155510, 156900, 158300, 159730, 161180, 162680, 164230, 165850, 167530, 169300, 171170, 173150, 175260,
    177540, 180000, 182660, 185550, 188690, 192100, 195800, 199810, 204100, 208640, 213390, 218320, 223410,
    228600, 233870, 239190, 244530, 249840, 255100, 260260, 265310, 270190, 274890, 279360, 283570, 287480,
    291070, 294310, 297200, 299790, 302090, 304120, 305920, 307500, 308900, 310130, 311220, 312190, 313030,
    313750, 314330, 314770, 315050, 315170, 315120, 314900, 314490, 313900, 313120, 312170, 311060, 309790,
    308380, 306840, 305170, 303380, 301490, 299500, 297410, 295210, 292900, 290470, 287920, 285240, 282430,
    279480, 276380, 273150, 269770, 266280, 262670, 258960, 255170, 251300, 247370, 243390, 239370, 235320,
    231280, 227250, 223260, 219330, 215490, 211750, 208130, 204660, 201360, 198240, 195300, 192530, 189900,
    187420, 185060, 182820, 180680, 178620, 176650, 174740, 172890, 171120, 169420, 167800, 166270, 164830,
    163480, 162220, 161070, 160020, 159070, 158210, 157440, 156760, 156160, 155620, 155160, 154760, 154420,
    154130, 153880, 153660, 153460, 153280, 153100, 152920, 152720, 152490, 152230, 151930, 151590, 151220,
    150820, 150400, 149970, 149540, 149100, 148680, 148260, 147870, 147500, 147170, 146870, 146620, 146410,
    146260, 146160, 146140, 146180, 146300, 146490, 146750, 147070, 147450, 147880, 148360, 148890, 149450,
    150050, 150680, 151350, 152050, 152790, 153580, 154410, 155300, 156240, 157230, 158290, 159410, 160580,
    161800, 163070, 164360, 165690, 167030, 168380, 169740, 171090, 172430, 173740, 175020, 176260, 177430,
    178530, 179550, 180480, 181300, 182010, 182590, 183040, 183400, 183650, 183810, 183890, 183890, 183840,
    183740, 183590, 183420, 183210, 182970, 182700, 182400, 182070, 181720, 181350, 180940, 180520, 180070,
    179600, 179100, 178570, 178030, 177450, 176850, 176210, 175550, 174860, 174140, 173390, 172600, 171780,
    170930, 170040, 169120, 168160, 167160, 166130, 165900, 165110, 164340, 163560, 162790, 162010, 161250,
    160480, 159720, 158960, 158210, 157450, 156700, 155960, 155210, 154470, 153730, 153000, 152260, 151540,
    150810, 150080, 149360, 148650, 147930, 147220, 146510, 145800, 145100, 144400, 143700, 143000, 142310,
    141620, 140930, 140250, 139570, 138890, 138210, 137540, 136870, 136200, 135530, 134870, 134210, 133560,
    132900, 132250, 131600, 130960, 130310, 129670, 129030, 128400, 127770, 127140, 126510, 125880, 125260,
    124640, 124030, 123410, 122800, 122190, 121590, 120980, 120380, 119780, 119190, 118590, 118000, 117410,
    116830, 116250, 115660, 115090, 114510, 113940, 113370]
  len := by decide +kernel

end CS.Data.TM30
