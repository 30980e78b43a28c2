import Verif.Data.Table

/-! IES TM-30-15 colour evaluation samples.  Generated by `tools/gen_data.py`. -/

namespace CS.Data.TM30

/-- `CES76` (hpp:5199-5239). -/
def CES76 : Table where
  scale := 6
  m := [
    211990, 215410, 218880, 222380, 225930, 229510, 233130, 236800, 240500, 244240, 248030, 251850, 255710,
    259610, 263540, 267520, 271530, 275580, 279670, 283790, 288600, 291780, 295760, 300400, 305560, 311110,
    316890, 322770, 328610, 334270, 339600, 344500, 348990, 353140, 357010, 360660, 364150, 367530, 370880,
    374250, 377700, 381280, 385000, 388820, 392750, 396750, 400830, 404960, 409120, 413310, 417500, 421680,
    425850, 429980, 434060, 438080, 442020, 445880, 449640, 453280, 456800, 460180, 463400, 466440, 469290,
    471920, 474320, 476460, 478340, 479920, 481200, 482150, 482790, 483130, 483170, 482930, 482420, 481650,
    480630, 479380, 477900, 476210, 474320, 472260, 470030, 467660, 465170, 462570, 459880, 457120, 454300,
    451440, 448550, 445610, 442630, 439590, 436510, 433370, 430180, 426920, 423600, 420220, 416760, 413250,
    409670, 406030, 402320, 398560, 394730, 390850, 386900, 382900, 378830, 374690, 370490, 366210, 361840,
    357400, 352860, 348230, 343500, 338670, 333740, 328730, 323640, 318480, 313260, 307980, 302650, 297290,
    291900, 286490, 281070, 275680, 270330, 265030, 259820, 254710, 249730, 244880, 240200, 235700, 231370,
    227200, 223180, 219290, 215540, 211890, 208340, 204880, 201500, 198180, 194910, 191670, 188440, 185210,
    181960, 178670, 175320, 171910, 168400, 164790, 161080, 157270, 153350, 149350, 145250, 141070, 136790,
    132440, 128000, 123490, 118930, 114330, 109730, 105160, 100620, 96153, 91778, 87519, 83400, 79445,
    75672, 72100, 68746, 65627, 62763, 60170, 57867, 55871, 54200, 52870, 51885, 51249, 50965, 51035, 51462,
    52249, 53399, 54915, 56800, 59047, 61612, 64441, 67483, 70683, 73989, 77347, 80703, 84005, 87200, 90241,
    93109, 95795, 98285, 100570, 102640, 104470, 106070, 107420, 108500, 109320, 109890, 110250, 110430,
    110450, 110360, 110180, 109940, 109670, 109400, 109160, 108960, 108790, 108660, 108570, 108510, 108500,
    108520, 108590, 108700, 108850, 109050, 109280, 109550, 109860, 110210, 110580, 110990, 111430, 111900,
    112400, 112930, 113500, 114120, 114810, 115560, 116390, 117300, 118300, 119400, 120610, 121920, 123340,
    124850, 126460, 128160, 129940, 131820, 133770, 135800, 137900, 140060, 142270, 144490, 146720, 148950,
    151140, 153300, 155390, 157400, 159320, 161130, 162820, 164380, 165790, 167050, 168130, 169020, 169720,
    170200, 170470, 170520, 170390, 170090, 169640, 169050, 168340, 167540, 166650, 165700, 164700, 163640,
    162500, 161270, 159940, 158490, 156910, 155170, 153280, 151200, 148940, 146550, 144090, 141610, 139170,
    136840, 134660, 132710, 131040, 129700, 127700, 125980, 124280, 122600, 120950, 119310, 117690, 116090,
    114500, 112940, 111400, 109870, 108360, 106870, 105400, 103950, 102510, 101100, 99695, 98312, 96946,
    95596, 94264, 92948, 91649, 90366, 89100, 87849, 86614, 85395, 84192, 83004, 81831, 80673, 79531, 78403,
    77290, 76191, 75106, 74036, 72980, 71938, 70909, 69895, 68893, 67905, 66930, 65968, 65019, 64082, 63159,
    62247, 61348, 60461, 59586, 58723, 57872, 57032, 56204, 55387, 54581, 53786, 53002, 52229, 51467, 50715,
    49974, 49243, 48522, 47811, 47110, 46418, 45737, 45065, 44402, 43749, 43105, 42469, 41843]
  len := by decide +kernel

/-- `CES77` (hpp:5240-5280). -/
def CES77 : Table where
  scale := 6
  m := [
    28048, 29636, 30644, 31716, 33095, 35374, 38409, 41975, 45803, 49918, 54221, 58601, 63164, 67928, 72997,
    78300, 83754, 89247, 94851, 100429, 105929, 110653, 115484, 120416, 125438, 130460, 135439, 140408,
    145471, 150663, 155909, 161138, 166309, 171404, 176431, 181404, 186392, 191397, 196365, 201203, 205860,
    210364, 214749, 219038, 223237, 227350, 231406, 235411, 239248, 242941, 246491, 249887, 253170, 256342,
    259408, 262339, 265047, 267509, 269804, 272095, 274254, 276187, 277968, 279676, 281415, 283126, 284764,
    286389, 287955, 289360, 290615, 291725, 292714, 293622, 294353, 294800, 295042, 295204, 295292, 295278,
    295171, 294927, 294596, 294248, 293806, 293265, 292636, 291842, 290888, 289879, 288751, 287494, 286152,
    284753, 283292, 281756, 280152, 278521, 276920, 275235, 273344, 271420, 269572, 267697, 265678, 263461,
    261109, 258736, 256338, 253889, 251406, 248796, 246147, 243468, 240740, 238093, 235597, 233172, 230644,
    228009, 225347, 222715, 220238, 217823, 215384, 212966, 210551, 208133, 205734, 203358, 200979, 198636,
    196339, 194047, 191716, 189335, 186942, 184556, 182180, 179816, 177495, 175235, 172945, 170624, 168293,
    165978, 163678, 161394, 159147, 156940, 154781, 152678, 150625, 148603, 146599, 144639, 142720, 140838,
    138990, 137160, 135341, 133527, 131706, 129894, 128098, 126321, 124534, 122739, 120943, 119139, 117338,
    115547, 113774, 112044, 110347, 108700, 107081, 105515, 103996, 102540, 101133, 99788, 98497, 97258,
    96071, 94913, 93783, 92708, 91654, 90658, 89671, 88729, 87813, 86936, 86091, 85258, 84467, 83713, 82988,
    82331, 81693, 81119, 80567, 80059, 79579, 79136, 78750, 78403, 78109, 77860, 77643, 77463, 77294, 77190,
    77107, 77073, 77070, 77102, 77154, 77216, 77304, 77422, 77565, 77766, 77987, 78251, 78553, 78919, 79302,
    79750, 80234, 80781, 81388, 82056, 82779, 83572, 84460, 85425, 86461, 87624, 88856, 90208, 91657, 93221,
    94951, 96814, 98804, 100895, 103096, 105410, 107842, 110433, 113158, 116034, 119055, 122160, 125408,
    128794, 132327, 136042, 139918, 143925, 148079, 152382, 156798, 161328, 166002, 170765, 175649, 180657,
    185741, 190912, 196131, 201379, 206639, 211931, 217258, 222593, 227972, 233377, 238768, 244108, 249364,
    254606, 259816, 264961, 269996, 274886, 279626, 284172, 288517, 292634, 296597, 300432, 304092, 307370,
    310359, 313562, 316648, 319661, 322488, 324876, 327081, 329079, 330870, 332473, 333919, 335155, 336239,
    337125, 337817, 338346, 338703, 338919, 339003, 338975, 338805, 338483, 338036, 337425, 336668, 335771,
    334793, 333760, 332598, 331333, 329946, 328513, 327074, 325634, 324248, 322923, 321682, 320432, 319149,
    317879, 316795, 315878, 314556, 313161, 311652, 310112, 308814, 307519, 306227, 304938, 303651, 302369,
    301089, 299812, 298538, 297267, 296000, 294735, 293474, 292216, 290961, 289710, 288461, 287216, 285973,
    284735, 283499, 282267, 281038, 279812, 278589, 277370, 276154, 274941, 273732, 272526, 271323, 270124,
    268928, 267735, 266546, 265360, 264177, 262998, 261822, 260627, 259436, 258250, 257068, 255891, 254718,
    253550, 252386, 251227, 250073, 248923, 247778, 246637, 245501, 244369, 243242, 242120, 241002, 239890]
  len := by decide +kernel

/-- `CES78` (hpp:5281-5321). -/
def CES78 : Table where
  scale := 6
  m := [
    129470, 131840, 134240, 136680, 139150, 141670, 144220, 146810, 149440, 152100, 154810, 157560, 160340,
    163160, 166030, 168930, 171880, 174860, 177890, 180950, 181200, 185940, 190320, 194380, 198170, 201720,
    205090, 208310, 211430, 214500, 217540, 220620, 223770, 227040, 230460, 234080, 237960, 242120, 246610,
    251480, 256760, 262500, 268670, 275230, 282150, 289400, 296950, 304760, 312810, 321040, 329440, 337970,
    346560, 355150, 363670, 372060, 380260, 388190, 395800, 403010, 409770, 416010, 421730, 426910, 431560,
    435670, 439220, 442230, 444680, 446570, 447900, 448660, 448870, 448570, 447790, 446540, 444860, 442780,
    440330, 437520, 434390, 430970, 427280, 423320, 419130, 414720, 410110, 405320, 400350, 395250, 390010,
    384660, 379230, 373740, 368200, 362650, 357110, 351600, 346150, 340770, 335500, 330350, 325330, 320430,
    315650, 310990, 306450, 302030, 297720, 293520, 289430, 285450, 281560, 277740, 273990, 270270, 266580,
    262890, 259190, 255470, 251700, 247870, 244000, 240090, 236140, 232190, 228230, 224280, 220340, 216440,
    212580, 208770, 205030, 201350, 197740, 194210, 190770, 187430, 184190, 181050, 178030, 175120, 172330,
    169650, 167070, 164580, 162180, 159850, 157610, 155420, 153300, 151230, 149210, 147200, 145220, 143230,
    141230, 139210, 137140, 135030, 132850, 130600, 128280, 125890, 123460, 120980, 118470, 115930, 113370,
    110800, 108230, 105660, 103120, 100600, 98122, 95695, 93329, 91035, 88824, 86707, 84694, 82796, 81011,
    79340, 77780, 76331, 74990, 73758, 72632, 71611, 70694, 69880, 69169, 68561, 68057, 67656, 67359, 67167,
    67080, 67097, 67219, 67446, 67775, 68199, 68715, 69318, 70003, 70766, 71602, 72506, 73475, 74501, 75577,
    76692, 77838, 79003, 80180, 81356, 82524, 83673, 84794, 85876, 86912, 87893, 88812, 89659, 90427, 91107,
    91691, 92171, 92538, 92788, 92925, 92958, 92894, 92743, 92511, 92208, 91841, 91419, 90950, 90441, 89903,
    89343, 88771, 88196, 87627, 87072, 86542, 86044, 85588, 85182, 84831, 84539, 84310, 84148, 84058, 84044,
    84109, 84259, 84496, 84824, 85242, 85748, 86339, 87013, 87767, 88600, 89509, 90491, 91545, 92668, 93854,
    95098, 96393, 97736, 99119, 100540, 101990, 103460, 104950, 106450, 107970, 109490, 111020, 112560,
    114100, 115640, 117170, 118710, 120240, 121770, 123330, 124940, 126660, 128500, 130500, 132690, 135120,
    137810, 140790, 144100, 147730, 151660, 155880, 160390, 165170, 170210, 175500, 181020, 186760, 192720,
    198880, 205220, 211740, 218420, 225260, 232230, 239340, 246560, 253880, 261040, 268630, 276350, 284210,
    292200, 300320, 308570, 316940, 325440, 334050, 342770, 351600, 360530, 369560, 378680, 387890, 397180,
    406550, 415980, 425470, 435020, 444620, 454260, 463940, 473640, 483360, 493090, 502830, 512570, 522300,
    532010, 541700, 551350, 560970, 570540, 580060, 589520, 598910, 608230, 617470, 626630, 635700, 644680,
    653550, 662320, 670980, 679520, 687940, 696240, 704420, 712470, 720380, 728160, 735800, 743310, 750670,
    757890, 764970, 771900, 778690, 785330, 791820, 798170, 804380, 810430, 816350, 822120, 827740, 833230,
    838570, 843770, 848840, 853770, 858570, 863230, 867770, 872180, 876460, 880610]
  len := by decide +kernel

/-- `CES79` (hpp:5322-5362). -/
def CES79 : Table where
  scale := 6
  m := [
    567490, 569710, 571930, 574150, 576360, 578570, 580770, 582970, 585170, 587370, 589560, 591750, 593930,
    596110, 598290, 600460, 602630, 604800, 606960, 609120, 606620, 610970, 614880, 618370, 621470, 624220,
    626630, 628740, 630570, 632160, 633530, 634700, 635710, 636590, 637360, 638050, 638680, 639300, 639910,
    640560, 641270, 642060, 642920, 643830, 644790, 645760, 646730, 647690, 648610, 649490, 650310, 651040,
    651680, 652210, 652640, 652950, 653130, 653180, 653070, 652810, 652390, 651800, 651070, 650230, 649320,
    648370, 647410, 646470, 645600, 644810, 644150, 643640, 643280, 643050, 642960, 642970, 643100, 643320,
    643620, 644000, 644450, 644940, 645460, 645970, 646440, 646840, 647150, 647320, 647320, 647140, 646730,
    646080, 645180, 644060, 642720, 641190, 639470, 637580, 635540, 633360, 631040, 628620, 626070, 623420,
    620660, 617780, 614790, 611700, 608490, 605180, 601760, 598230, 594610, 590900, 587130, 583300, 579420,
    575520, 571590, 567660, 563730, 559820, 555930, 552070, 548230, 544430, 540660, 536930, 533240, 529600,
    526000, 522460, 518960, 515490, 512050, 508630, 505220, 501800, 498370, 494930, 491450, 487940, 484410,
    480850, 477280, 473700, 470120, 466560, 463010, 459490, 456010, 452560, 449160, 445810, 442520, 439280,
    436090, 432980, 429930, 426950, 424040, 421210, 418460, 415780, 413180, 410660, 408220, 405860, 403570,
    401350, 399220, 397160, 395170, 393250, 391400, 389610, 387880, 386200, 384570, 382990, 381450, 379940,
    378470, 377030, 375610, 374200, 372800, 371400, 370000, 368580, 367150, 365700, 364240, 362790, 361350,
    359950, 358600, 357310, 356090, 354970, 353940, 353040, 352250, 351580, 351030, 350600, 350280, 350080,
    350000, 350030, 350170, 350430, 350800, 351270, 351830, 352470, 353200, 353990, 354850, 355760, 356720,
    357730, 358770, 359840, 360940, 362070, 363220, 364390, 365560, 366750, 367940, 369140, 370340, 371560,
    372800, 374080, 375390, 376740, 378150, 379610, 381150, 382760, 384460, 386280, 388240, 390350, 392640,
    395130, 397840, 400780, 403980, 407460, 411220, 415260, 419570, 424150, 429010, 434140, 439540, 445210,
    451140, 457340, 463800, 470500, 477440, 484600, 491980, 499560, 507330, 515290, 523420, 531710, 540130,
    548650, 557230, 565830, 574430, 583000, 591480, 599870, 608110, 616180, 624070, 631760, 639240, 646500,
    653530, 660320, 666850, 673110, 679100, 684800, 690220, 695380, 700290, 704960, 709400, 713630, 717660,
    721500, 725160, 728670, 732020, 735240, 738340, 741340, 744250, 747080, 749840, 752560, 755250, 757920,
    760580, 763250, 765950, 768680, 771470, 774330, 777270, 780300, 783440, 785090, 787670, 790220, 792750,
    795250, 797740, 800200, 802640, 805050, 807450, 809820, 812170, 814500, 816800, 819080, 821340, 823580,
    825790, 827990, 830160, 832310, 834440, 836540, 838630, 840690, 842730, 844750, 846750, 848730, 850690,
    852620, 854540, 856430, 858310, 860160, 861990, 863810, 865600, 867370, 869130, 870860, 872570, 874270,
    875940, 877600, 879230, 880850, 882450, 884030, 885590, 887140, 888660, 890170, 891660, 893130, 894580,
    896020, 897440, 898840, 900230, 901590, 902950, 904280, 905600, 906900, 908190, 909460, 910710, 911950,
    913170, 914380, 915570, 916750, 917910, 919060, 920190, 921310, 922410, 923500]
  len := by decide +kernel

/-- `CES80` (hpp:5363-5403). -/
def CES80 : Table where
  scale := 6
  m := [
    316840, 322680, 328320, 333790, 339120, 344330, 349450, 354530, 359580, 364630, 369720, 374870, 380080,
    385340, 390640, 395990, 401380, 406790, 412220, 417680, 423140, 428610, 434070, 439500, 444900, 450250,
    455530, 460740, 465850, 470860, 475750, 480510, 485130, 489630, 493990, 498230, 502340, 506320, 510170,
    513900, 517510, 521000, 524360, 527610, 530750, 533770, 536690, 539500, 542210, 544820, 547330, 549750,
    552070, 554300, 556440, 558470, 560410, 562260, 564000, 565650, 567200, 568650, 569990, 571240, 572370,
    573400, 574320, 575120, 575810, 576380, 576830, 577160, 577360, 577450, 577400, 577230, 576930, 576500,
    575930, 575240, 574410, 573450, 572340, 571090, 569700, 568150, 566450, 564590, 562560, 560370, 558010,
    555470, 552760, 549880, 546820, 543600, 540200, 536640, 532920, 529020, 524970, 520760, 516390, 511900,
    507280, 502560, 497740, 492840, 487870, 482860, 477800, 472720, 467620, 462510, 457400, 452290, 447210,
    442150, 437120, 432140, 427200, 422320, 417500, 412750, 408060, 403440, 398880, 394400, 389990, 385660,
    381400, 377220, 373120, 369100, 365150, 361270, 357470, 353730, 350050, 346440, 342890, 339400, 335970,
    332620, 329330, 326120, 322990, 319950, 317000, 314140, 311380, 308720, 306160, 303690, 301320, 299030,
    296830, 294700, 292660, 290680, 288770, 286930, 285150, 283430, 281790, 280210, 278690, 277250, 275870,
    274570, 273330, 272160, 271070, 270040, 269090, 268200, 267380, 266630, 265950, 265340, 264790, 264310,
    263900, 263550, 263280, 263070, 262930, 262850, 262850, 262910, 263040, 263240, 263500, 263820, 264200,
    264620, 265080, 265590, 266130, 266690, 267280, 267890, 268520, 269160, 269830, 270520, 271240, 271980,
    272750, 273550, 274370, 275220, 276110, 277010, 277940, 278900, 279870, 280860, 281860, 282870, 283900,
    284940, 285980, 287040, 288120, 289210, 290330, 291480, 292650, 293850, 295080, 296350, 297650, 298990,
    300370, 301780, 303230, 304720, 306230, 307790, 309380, 311010, 312670, 314390, 316150, 317960, 319840,
    321780, 323780, 325860, 328020, 330260, 332580, 334980, 337470, 340040, 342700, 345440, 348260, 351170,
    354160, 357240, 360410, 363670, 367020, 370480, 374050, 377720, 381510, 385410, 389430, 393580, 397840,
    402230, 406720, 411330, 416040, 420850, 425760, 430770, 435860, 441040, 446300, 451650, 457080, 462600,
    468190, 473860, 479610, 485440, 491340, 497320, 503370, 509490, 515690, 521960, 528300, 534710, 541190,
    547730, 554350, 561030, 567760, 574540, 581340, 588150, 594960, 601750, 608520, 615240, 621910, 628510,
    635040, 641490, 647880, 654190, 660430, 666590, 672680, 678690, 684630, 690490, 696260, 701940, 707520,
    712990, 718350, 723570, 728670, 733620, 738430, 743080, 747590, 751950, 756180, 760290, 764280, 768170,
    771960, 775650, 779270, 782810, 786270, 789660, 792950, 796150, 799250, 802260, 805150, 807940, 810610,
    813160, 815610, 817950, 820220, 822410, 824530, 826610, 828650, 830670, 832670, 834660, 836630, 838540,
    840380, 842110, 843720, 845180, 846460, 847540, 848390, 849000, 849390, 849600, 849640, 849570, 849390,
    849160, 848890, 848630, 848390, 848210, 848090, 848020, 847990, 848000, 848040, 848100, 848190, 848290,
    848390, 848490, 848590, 848680, 848740, 848780, 848790, 848760, 848690, 848570]
  len := by decide +kernel

/-- `CES81` (hpp:5404-5444). -/
def CES81 : Table where
  scale := 6
  m := [
    120670, 131180, 141180, 152590, 164170, 176020, 187220, 199450, 211100, 222000, 232980, 242680, 251120,
    259720, 267250, 274470, 281400, 288430, 294010, 299480, 304420, 308950, 313560, 317470, 320710, 323570,
    326750, 329860, 332420, 335020, 336820, 338770, 340590, 341930, 343520, 345010, 346320, 346650, 346590,
    347020, 347630, 348340, 348400, 348590, 349460, 350690, 352120, 352870, 353690, 354780, 355000, 354680,
    354280, 354340, 354210, 352710, 351000, 349390, 348480, 347200, 345190, 344070, 342980, 341420, 339610,
    338140, 337690, 337120, 336220, 334680, 333350, 332490, 330730, 328930, 327460, 325850, 323600, 321110,
    318460, 315730, 313430, 311260, 309130, 307180, 305510, 302960, 301300, 299910, 297990, 295800, 293430,
    290730, 287910, 285030, 282340, 279070, 276630, 272930, 268700, 265050, 261790, 258710, 255830, 252790,
    249640, 246440, 243440, 239990, 236830, 233390, 230070, 227110, 224360, 221760, 219180, 216520, 213820,
    210880, 208180, 205540, 203560, 201230, 198760, 196060, 193030, 189940, 186950, 184030, 181060, 177910,
    174810, 171830, 169010, 165340, 161710, 158380, 155090, 151550, 147710, 144160, 140460, 136570, 132730,
    129020, 125990, 123150, 120250, 117300, 114570, 112480, 110690, 109470, 108550, 107620, 106900, 106180,
    105350, 104460, 104080, 103800, 103100, 102510, 102070, 101670, 100970, 99973, 99195, 98641, 98719,
    98215, 97486, 96614, 95262, 93774, 92362, 91213, 89899, 88341, 86642, 84249, 82113, 80282, 78914, 77949,
    76426, 74395, 72563, 71100, 69971, 68740, 67994, 67429, 67089, 66726, 66693, 67378, 68152, 68785, 69414,
    70249, 71705, 73490, 75620, 77706, 79242, 81241, 83152, 84934, 86570, 88421, 90241, 91636, 92684, 93529,
    94517, 96300, 97743, 98657, 99700, 101020, 102330, 103420, 104230, 104550, 105120, 105170, 104520,
    103220, 101900, 101140, 100100, 98970, 97916, 97323, 96479, 95355, 94920, 95497, 96479, 98077, 99781,
    101520, 104490, 107120, 109660, 113680, 116940, 120710, 124770, 128830, 132970, 137500, 144020, 149500,
    155350, 161670, 167590, 174540, 181700, 188800, 196160, 204360, 212650, 219980, 228610, 238980, 249540,
    260170, 271000, 281850, 291730, 302970, 314030, 324840, 335000, 343450, 350870, 358250, 365260, 371920,
    378350, 386170, 392150, 396790, 400290, 404030, 408800, 413240, 417090, 420990, 424720, 427290, 428390,
    429690, 432540, 436000, 438770, 440960, 442970, 444770, 446740, 448850, 450910, 453060, 454990, 455910,
    456710, 458110, 459470, 460260, 460760, 461060, 461630, 462620, 463320, 461650, 463520, 469320, 470430,
    465310, 465310, 468510, 469240, 469980, 470710, 471450, 472180, 472920, 473660, 474390, 475130, 475870,
    476600, 477340, 478070, 478810, 479550, 480280, 481020, 481760, 482500, 483230, 483970, 484710, 485450,
    486180, 486920, 487660, 488400, 489130, 489870, 490610, 491350, 492080, 492820, 493560, 494300, 495040,
    495770, 496510, 497250, 497990, 498730, 499460, 500200, 500940, 501680, 502420, 503150, 503890, 504630,
    505370, 506110, 506840, 507580, 508320, 509060, 509800, 510530, 511270, 512010, 512750, 513480, 514220,
    514960, 515700, 516430, 517170, 517910, 518650, 519380, 520120, 520860, 521590, 522330, 523070, 523800,
    524540, 525280, 526010]
  len := by decide +kernel

/-- `CES82` (hpp:5445-5485). -/
def CES82 : Table where
  scale := 6
  m := [
    707720, 709190, 710650, 712120, 713570, 715030, 716470, 717920, 719360, 720790, 722220, 723640, 725070,
    726480, 727890, 729300, 730700, 732100, 733500, 734880, 736500, 737520, 738800, 740300, 741970, 743770,
    745650, 747580, 749510, 751400, 753200, 754880, 756440, 757910, 759280, 760590, 761850, 763060, 764240,
    765420, 766600, 767800, 769000, 770210, 771410, 772590, 773740, 774860, 775930, 776950, 777900, 778780,
    779600, 780350, 781060, 781710, 782330, 782900, 783460, 783990, 784500, 785000, 785490, 785960, 786410,
    786820, 787190, 787520, 787810, 788030, 788200, 788300, 788340, 788310, 788210, 788040, 787810, 787510,
    787140, 786700, 786200, 785630, 784980, 784270, 783480, 782610, 781670, 780650, 779550, 778370, 777100,
    775750, 774320, 772820, 771260, 769640, 767980, 766270, 764540, 762780, 761000, 759210, 757410, 755590,
    753740, 751860, 749950, 747990, 745980, 743920, 741800, 739620, 737380, 735090, 732780, 730440, 728090,
    725740, 723400, 721090, 718800, 716550, 714350, 712180, 710050, 707960, 705890, 703860, 701850, 699860,
    697900, 695960, 694030, 692120, 690230, 688340, 686470, 684590, 682730, 680860, 679000, 677130, 675270,
    673430, 671600, 669800, 668040, 666320, 664650, 663040, 661500, 660030, 658630, 657310, 656040, 654840,
    653710, 652630, 651600, 650620, 649700, 648820, 648000, 647230, 646520, 645870, 645300, 644800, 644380,
    644050, 643800, 643650, 643580, 643590, 643670, 643810, 644000, 644230, 644500, 644790, 645100, 645420,
    645750, 646080, 646410, 646740, 647070, 647390, 647710, 648010, 648300, 648570, 648840, 649090, 649330,
    649560, 649790, 650020, 650240, 650470, 650700, 650940, 651180, 651440, 651710, 652000, 652310, 652640,
    653000, 653390, 653800, 654250, 654720, 655220, 655750, 656290, 656840, 657400, 657970, 658530, 659100,
    659660, 660210, 660740, 661270, 661770, 662250, 662710, 663140, 663530, 663900, 664230, 664530, 664800,
    665050, 665280, 665500, 665700, 665900, 666100, 666300, 666510, 666720, 666940, 667160, 667370, 667590,
    667800, 668010, 668210, 668400, 668580, 668780, 669010, 669290, 669660, 670130, 670730, 671470, 672390,
    673500, 674820, 676350, 678070, 679960, 682010, 684210, 686540, 689000, 691550, 694200, 696930, 699740,
    702630, 705620, 708710, 711900, 715200, 718610, 722140, 725800, 729580, 733490, 737510, 741650, 745880,
    750220, 754640, 759150, 763740, 768400, 773120, 777880, 782650, 787410, 792130, 796780, 801340, 805780,
    810080, 814200, 818130, 821900, 825540, 829070, 832530, 835950, 839370, 842810, 846310, 849900, 853590,
    857340, 861080, 864740, 868260, 871570, 874600, 877300, 879590, 881400, 884130, 886440, 888720, 890950,
    893150, 895300, 897420, 899500, 901540, 903550, 905520, 907450, 909350, 911210, 913040, 914830, 916590,
    918320, 920010, 921670, 923300, 924900, 926470, 928010, 929520, 930990, 932440, 933870, 935260, 936630,
    937970, 939280, 940570, 941830, 943070, 944280, 945470, 946630, 947770, 948890, 949980, 951050, 952100,
    953130, 954140, 955130, 956090, 957040, 957970, 958880, 959770, 960640, 961490, 962330, 963140, 963950,
    964730, 965500, 966250, 966980, 967700, 968410, 969100, 969770, 970440, 971080, 971720, 972340, 972940,
    973540, 974120, 974690, 975240, 975790, 976320, 976840, 977350, 977850, 978340]
  len := by decide +kernel

/-- `CES83` (hpp:5486-5526). -/
def CES83 : Table where
  scale := 6
  m := [
    563490, 565110, 566720, 568330, 569940, 571540, 573150, 574750, 576360, 577960, 579560, 581150, 582750,
    584350, 585940, 587530, 589120, 590700, 592290, 593870, 595700, 596890, 598380, 600090, 601980, 603960,
    605980, 607980, 609890, 611650, 613200, 614490, 615520, 616330, 616950, 617390, 617690, 617880, 617970,
    618010, 618000, 617980, 617940, 617870, 617770, 617620, 617420, 617150, 616820, 616400, 615900, 615300,
    614620, 613860, 613030, 612130, 611190, 610210, 609190, 608150, 607100, 606040, 604960, 603860, 602710,
    601520, 600270, 598940, 597520, 596020, 594400, 592670, 590830, 588900, 586870, 584780, 582620, 580420,
    578170, 575890, 573600, 571300, 568970, 566610, 564200, 561730, 559180, 556530, 553780, 550910, 547900,
    544750, 541470, 538090, 534630, 531110, 527570, 524030, 520500, 517020, 513600, 510270, 507020, 503850,
    500730, 497660, 494630, 491630, 488650, 485680, 482700, 479710, 476710, 473710, 470710, 467710, 464730,
    461760, 458810, 455890, 453000, 450140, 447330, 444560, 441830, 439160, 436540, 433980, 431490, 429060,
    426700, 424410, 422200, 420050, 417960, 415920, 413940, 412000, 410100, 408230, 406400, 404590, 402820,
    401070, 399360, 397690, 396050, 394470, 392930, 391440, 390000, 388620, 387300, 386050, 384880, 383780,
    382770, 381850, 381030, 380310, 379700, 379200, 378810, 378510, 378300, 378170, 378100, 378090, 378120,
    378200, 378300, 378420, 378580, 378760, 379000, 379280, 379630, 380050, 380540, 381120, 381800, 382580,
    383440, 384390, 385390, 386430, 387510, 388600, 389680, 390760, 391800, 392800, 393760, 394670, 395550,
    396390, 397200, 397970, 398710, 399420, 400100, 400760, 401390, 401990, 402550, 403090, 403590, 404050,
    404480, 404860, 405200, 405500, 405750, 405970, 406150, 406300, 406420, 406520, 406600, 406660, 406700,
    406730, 406750, 406760, 406750, 406720, 406660, 406590, 406490, 406360, 406200, 406010, 405790, 405550,
    405280, 404990, 404680, 404350, 404010, 403660, 403300, 402930, 402580, 402260, 401980, 401770, 401650,
    401630, 401740, 401990, 402400, 402990, 403750, 404680, 405770, 407030, 408450, 410020, 411730, 413600,
    415600, 417740, 420020, 422450, 425040, 427790, 430710, 433800, 437080, 440540, 444200, 448060, 452110,
    456330, 460720, 465260, 469940, 474750, 479670, 484690, 489800, 494990, 500270, 505630, 511080, 516640,
    522300, 528070, 533950, 539960, 546100, 552360, 558710, 565100, 571480, 577810, 584030, 590110, 596000,
    601640, 607000, 612040, 616820, 621400, 625840, 630230, 634620, 639090, 643690, 648510, 653600, 659010,
    664630, 670360, 676070, 681620, 686910, 691810, 696180, 699920, 702900, 707460, 711360, 715230, 719060,
    722870, 726640, 730390, 734090, 737770, 741410, 745030, 748600, 752150, 755660, 759130, 762570, 765980,
    769360, 772700, 776000, 779270, 782510, 785710, 788880, 792020, 795110, 798180, 801210, 804210, 807170,
    810100, 812990, 815850, 818670, 821470, 824220, 826950, 829640, 832300, 834920, 837510, 840070, 842590,
    845090, 847550, 849980, 852370, 854740, 857070, 859370, 861640, 863880, 866090, 868270, 870420, 872540,
    874630, 876690, 878720, 880720, 882690, 884640, 886560, 888440, 890310, 892140, 893950, 895730, 897480,
    899210, 900910, 902590, 904240, 905860, 907460, 909040, 910590, 912120, 913630]
  len := by decide +kernel

/-- `CES84` (hpp:5527-5567). -/
def CES84 : Table where
  scale := 6
  m := [
    33754, 34106, 34463, 34823, 35186, 35553, 35924, 36299, 36677, 37059, 37445, 37835, 38229, 38626, 39028,
    39434, 39843, 40257, 40675, 41097, 41383, 41884, 42374, 42854, 43326, 43791, 44249, 44703, 45153, 45601,
    46047, 46494, 46942, 47392, 47846, 48304, 48769, 49241, 49721, 50211, 50712, 51224, 51746, 52275, 52808,
    53344, 53880, 54413, 54941, 55461, 55971, 56469, 56952, 57419, 57867, 58293, 58697, 59076, 59427, 59750,
    60040, 60298, 60525, 60724, 60896, 61045, 61173, 61283, 61378, 61459, 61529, 61590, 61641, 61680, 61704,
    61712, 61701, 61669, 61615, 61536, 61430, 61295, 61135, 60953, 60752, 60536, 60308, 60072, 59830, 59587,
    59346, 59110, 58885, 58677, 58491, 58333, 58208, 58122, 58081, 58090, 58155, 58279, 58458, 58685, 58953,
    59255, 59583, 59933, 60295, 60664, 61033, 61394, 61744, 62076, 62387, 62670, 62922, 63137, 63311, 63438,
    63514, 63535, 63504, 63426, 63305, 63146, 62952, 62729, 62480, 62211, 61926, 61627, 61315, 60986, 60639,
    60272, 59882, 59468, 59027, 58556, 58055, 57522, 56958, 56367, 55752, 55115, 54459, 53787, 53102, 52407,
    51704, 50997, 50286, 49572, 48856, 48138, 47420, 46702, 45986, 45271, 44559, 43850, 43146, 42447, 41756,
    41072, 40397, 39732, 39079, 38438, 37810, 37198, 36603, 36029, 35479, 34956, 34462, 34002, 33577, 33192,
    32848, 32550, 32294, 32079, 31904, 31765, 31662, 31591, 31552, 31542, 31558, 31601, 31674, 31782, 31929,
    32122, 32365, 32664, 33022, 33446, 33940, 34508, 35145, 35847, 36607, 37419, 38279, 39181, 40118, 41086,
    42078, 43089, 44110, 45135, 46154, 47160, 48144, 49099, 50016, 50887, 51704, 52461, 53161, 53809, 54408,
    54964, 55482, 55966, 56420, 56851, 57261, 57656, 58035, 58398, 58745, 59074, 59385, 59677, 59950, 60204,
    60437, 60650, 60843, 61017, 61175, 61316, 61443, 61556, 61657, 61747, 61827, 61898, 61963, 62024, 62083,
    62142, 62204, 62271, 62344, 62427, 62521, 62628, 62747, 62876, 63014, 63158, 63306, 63457, 63610, 63761,
    63911, 64056, 64195, 64329, 64455, 64573, 64681, 64779, 64866, 64941, 65002, 65050, 65084, 65105, 65116,
    65117, 65108, 65091, 65067, 65037, 65002, 64963, 64921, 64875, 64826, 64776, 64724, 64670, 64616, 64561,
    64506, 64452, 64397, 64342, 64287, 64230, 64171, 64111, 64047, 63981, 63911, 63837, 63758, 63675, 63586,
    63492, 63391, 63284, 63170, 63048, 62918, 62921, 62833, 62746, 62659, 62572, 62485, 62398, 62311, 62224,
    62138, 62051, 61965, 61879, 61793, 61707, 61621, 61535, 61450, 61364, 61279, 61193, 61108, 61023, 60938,
    60853, 60769, 60684, 60599, 60515, 60431, 60347, 60262, 60178, 60095, 60011, 59927, 59844, 59760, 59677,
    59594, 59511, 59428, 59345, 59262, 59179, 59097, 59014, 58932, 58850, 58768, 58686, 58604, 58522, 58440,
    58358, 58277, 58196, 58114, 58033, 57952, 57871, 57790, 57710, 57629, 57548, 57468, 57388, 57307, 57227,
    57147, 57067, 56988, 56908, 56828, 56749, 56670, 56590, 56511, 56432]
  len := by decide +kernel

/-- `CES85` (hpp:5568-5608). -/
def CES85 : Table where
  scale := 6
  m := [
    14249, 13601, 11656, 11680, 12398, 12915, 12881, 13581, 14289, 15239, 17314, 18985, 19990, 22170, 23181,
    24437, 26441, 29210, 32328, 35656, 38310, 39964, 41976, 44240, 46645, 49395, 52798, 56377, 59012, 61242,
    63243, 65841, 69235, 72588, 76166, 79552, 82672, 85384, 88418, 91860, 95230, 98943, 101950, 104700,
    108480, 112330, 116270, 120570, 124480, 128220, 131660, 135460, 139270, 143670, 147560, 149500, 151390,
    153380, 155190, 156720, 158200, 160290, 161460, 161590, 161550, 162750, 165140, 166730, 168370, 169610,
    171070, 171860, 172030, 173020, 174320, 174960, 174800, 174970, 175520, 175000, 173950, 173150, 173480,
    174220, 174400, 173700, 174110, 174470, 173730, 173010, 172160, 171710, 171270, 169930, 168450, 167270,
    167120, 165620, 163550, 161780, 160070, 159260, 158500, 157780, 156920, 155760, 154480, 152970, 152000,
    150700, 149270, 147950, 146550, 145620, 144570, 143210, 141730, 139730, 137650, 135450, 134360, 133270,
    132070, 130440, 128370, 126440, 125070, 123830, 122800, 121920, 121230, 120180, 118940, 117330, 116430,
    115990, 115200, 113980, 112750, 111520, 110040, 108310, 106840, 105930, 105250, 104000, 102410, 100770,
    99384, 98325, 97159, 96076, 95405, 94822, 94267, 93593, 93181, 92920, 92830, 92639, 92134, 92305, 92678,
    93017, 93029, 92614, 92157, 91279, 90637, 90438, 90657, 90810, 90329, 89886, 89573, 89016, 88773, 88818,
    89194, 89247, 89068, 88876, 88609, 88624, 88360, 87918, 88044, 88265, 88420, 88144, 87941, 87402, 86601,
    86218, 85813, 85875, 85788, 85625, 85083, 84757, 84629, 84470, 84794, 85620, 86012, 87252, 88404, 89045,
    89310, 89975, 90875, 92511, 94109, 95129, 95883, 97581, 99109, 99961, 100600, 101520, 102740, 104080,
    105060, 106250, 107710, 108740, 108860, 107990, 107040, 108160, 109590, 110490, 110570, 110690, 111220,
    111710, 111890, 112480, 113780, 115750, 116030, 116060, 117560, 119660, 121610, 122760, 124320, 125600,
    126890, 127910, 129160, 131510, 135090, 136550, 137460, 138260, 139280, 140280, 141920, 143620, 144640,
    145510, 146010, 146020, 147030, 150490, 153660, 156800, 160010, 163940, 167850, 172910, 178570, 184360,
    189100, 192650, 194600, 196900, 200190, 203910, 207840, 212290, 216580, 220300, 223870, 227940, 233120,
    238120, 243820, 248490, 252550, 256260, 259640, 263050, 266580, 269740, 273160, 277130, 280980, 283950,
    287370, 290550, 294450, 298320, 301660, 304810, 307440, 309660, 311930, 314130, 316300, 318190, 320520,
    322430, 324190, 324170, 324540, 328790, 335870, 338780, 338780, 340040, 342290, 344550, 346810, 349080,
    351360, 353640, 355930, 358230, 360540, 362850, 365160, 367490, 369820, 372150, 374490, 376840, 379190,
    381550, 383920, 386290, 388660, 391040, 393430, 395820, 398220, 400620, 403020, 405440, 407850, 410270,
    412690, 415120, 417550, 419990, 422430, 424870, 427320, 429770, 432230, 434690, 437150, 439610, 442080,
    444550, 447020, 449500, 451970, 454450, 456940, 459420, 461910, 464400, 466890, 469380, 471870, 474370,
    476860, 479360, 481860, 484360, 486860, 489360, 491860, 494360, 496870, 499370, 501870, 504370, 506870,
    509380, 511880, 514380, 516880, 519380, 521870, 524370, 526870, 529360]
  len := by decide +kernel

/-- `CES86` (hpp:5609-5649). -/
def CES86 : Table where
  scale := 6
  m := [
    502520, 504820, 507110, 509410, 511700, 514000, 516290, 518580, 520870, 523170, 525460, 527740, 530030,
    532320, 534600, 536890, 539170, 541450, 543730, 546010, 546360, 549520, 552510, 555340, 558020, 560560,
    562960, 565240, 567390, 569430, 571380, 573220, 574980, 576660, 578260, 579810, 581300, 582740, 584140,
    585510, 586860, 588190, 589480, 590700, 591830, 592840, 593700, 594400, 594900, 595170, 595200, 594970,
    594480, 593770, 592850, 591760, 590510, 589140, 587660, 586100, 584480, 582830, 581130, 579390, 577600,
    575750, 573840, 571860, 569800, 567650, 565420, 563090, 560670, 558160, 555560, 552870, 550100, 547240,
    544310, 541300, 538210, 535060, 531830, 528530, 525170, 521740, 518240, 514690, 511070, 507400, 503660,
    499880, 496050, 492180, 488280, 484370, 480450, 476520, 472610, 468710, 464840, 461010, 457210, 453440,
    449700, 445970, 442270, 438590, 434920, 431260, 427610, 423970, 420320, 416670, 413010, 409340, 405650,
    401950, 398220, 394470, 390680, 386860, 383020, 379160, 375300, 371450, 367610, 363810, 360040, 356320,
    352650, 349060, 345540, 342100, 338750, 335490, 332330, 329280, 326330, 323500, 320780, 318200, 315730,
    313360, 311090, 308900, 306780, 304730, 302730, 300770, 298840, 296930, 295030, 293130, 291210, 289270,
    287290, 285260, 283180, 281020, 278790, 276470, 274070, 271630, 269140, 266640, 264150, 261670, 259240,
    256860, 254560, 252360, 250270, 248310, 246490, 244830, 243340, 242050, 240960, 240100, 239470, 239090,
    238940, 239010, 239270, 239690, 240270, 240970, 241780, 242680, 243640, 244650, 245680, 246720, 247750,
    248750, 249690, 250560, 251350, 252030, 252580, 252980, 253250, 253390, 253410, 253310, 253100, 252800,
    252410, 251930, 251390, 250780, 250130, 249490, 248880, 248330, 247880, 247560, 247410, 247440, 247710,
    248240, 249050, 250160, 251600, 253390, 255550, 258110, 261080, 264490, 268360, 272710, 277540, 282850,
    288640, 294910, 301660, 308880, 316580, 324750, 333390, 342510, 352070, 362060, 372460, 383250, 394400,
    405890, 417710, 429820, 442210, 454850, 467680, 480640, 493670, 506700, 519670, 532510, 545180, 557590,
    569690, 581420, 592770, 603720, 614260, 624380, 634080, 643340, 652150, 660500, 668370, 675780, 682710,
    689190, 695240, 700870, 706080, 710910, 715360, 719440, 723180, 726580, 729680, 732490, 735030, 737330,
    739410, 741300, 743010, 744580, 746010, 747350, 748580, 749740, 750820, 751850, 752820, 753760, 754670,
    755560, 756440, 757330, 758220, 759130, 760070, 761020, 762010, 763030, 764100, 765210, 766370, 767590,
    768870, 770210, 771630, 773130, 774710, 776370, 778130, 779990, 781950, 782060, 783420, 784770, 786120,
    787470, 788800, 790130, 791460, 792780, 794090, 795390, 796690, 797990, 799270, 800560, 801830, 803100,
    804360, 805620, 806870, 808110, 809350, 810580, 811810, 813030, 814240, 815450, 816650, 817850, 819040,
    820220, 821400, 822570, 823740, 824900, 826050, 827200, 828340, 829470, 830600, 831730, 832840, 833960,
    835060, 836160, 837250, 838340, 839420, 840500, 841570, 842640, 843690, 844750, 845790, 846830, 847870,
    848900, 849920, 850940, 851950, 852960, 853960, 854960, 855950, 856930, 857910, 858880, 859850, 860810,
    861770, 862720, 863670, 864610, 865540, 866470, 867390, 868310, 869220, 870130]
  len := by decide +kernel

/-- `CES87` (hpp:5650-5690). -/
def CES87 : Table where
  scale := 6
  m := [
    106130, 108020, 109930, 111880, 113850, 115860, 117890, 119960, 122060, 124190, 126350, 128540, 130760,
    133020, 135310, 137640, 139990, 142390, 144810, 147270, 145960, 150310, 154350, 158090, 161550, 164760,
    167720, 170470, 173000, 175350, 177530, 179560, 181460, 183240, 184920, 186530, 188070, 189580, 191060,
    192530, 194010, 195520, 197070, 198650, 200270, 201930, 203640, 205400, 207200, 209070, 210990, 212970,
    214990, 217040, 219100, 221140, 223160, 225120, 227020, 228840, 230550, 232140, 233600, 234900, 236040,
    237000, 237750, 238300, 238610, 238680, 238490, 238040, 237320, 236370, 235210, 233840, 232290, 230590,
    228740, 226770, 224690, 222530, 220300, 217990, 215630, 213220, 210770, 208290, 205790, 203280, 200760,
    198250, 195750, 193250, 190770, 188290, 185830, 183380, 180950, 178540, 176140, 173760, 171410, 169080,
    166770, 164480, 162210, 159970, 157760, 155570, 153400, 151260, 149150, 147050, 144970, 142900, 140830,
    138770, 136700, 134630, 132550, 130460, 128350, 126240, 124110, 121970, 119830, 117680, 115520, 113370,
    111200, 109040, 106890, 104750, 102630, 100540, 98496, 96494, 94547, 92663, 90850, 89115, 87458, 85880,
    84381, 82961, 81620, 80358, 79176, 78073, 77049, 76103, 75224, 74401, 73623, 72876, 72149, 71430, 70708,
    69970, 69205, 68403, 67562, 66684, 65770, 64821, 63836, 62819, 61768, 60687, 59574, 58433, 57271, 56096,
    54918, 53745, 52585, 51448, 50341, 49274, 48255, 47292, 46387, 45541, 44756, 44034, 43375, 42782, 42254,
    41795, 41404, 41088, 40872, 40783, 40852, 41106, 41575, 42286, 43270, 44555, 46170, 48135, 50444, 53079,
    56024, 59265, 62784, 66567, 70596, 74857, 79333, 84001, 88811, 93705, 98627, 103520, 108320, 112980,
    117430, 121630, 125500, 129020, 132180, 135030, 137570, 139840, 141870, 143680, 145290, 146740, 148040,
    149230, 150310, 151290, 152190, 153010, 153770, 154480, 155140, 155770, 156380, 156980, 157560, 158140,
    158700, 159270, 159820, 160380, 160930, 161490, 162040, 162600, 163160, 163740, 164320, 164920, 165530,
    166160, 166820, 167490, 168200, 168930, 169690, 170480, 171300, 172150, 173030, 173930, 174870, 175840,
    176840, 177860, 178900, 179950, 180990, 182000, 182980, 183910, 184770, 185560, 186270, 186870, 187380,
    187780, 188090, 188300, 188410, 188440, 188370, 188210, 187960, 187620, 187210, 186750, 186240, 185710,
    185160, 184620, 184100, 183620, 183190, 182820, 182510, 182250, 182040, 181850, 181700, 181570, 181450,
    181330, 181200, 181070, 180920, 180730, 180520, 180260, 179940, 179570, 179130, 178620, 178030, 178470,
    178230, 177990, 177750, 177510, 177270, 177030, 176790, 176560, 176320, 176080, 175840, 175600, 175370,
    175130, 174890, 174660, 174420, 174190, 173950, 173710, 173480, 173240, 173010, 172780, 172540, 172310,
    172070, 171840, 171610, 171370, 171140, 170910, 170680, 170450, 170210, 169980, 169750, 169520, 169290,
    169060, 168830, 168600, 168370, 168140, 167910, 167680, 167450, 167230, 167000, 166770, 166540, 166310,
    166090, 165860, 165630, 165410, 165180, 164960, 164730, 164510, 164280, 164060, 163830, 163610, 163380,
    163160, 162930, 162710, 162490, 162260, 162040, 161820, 161600, 161380, 161150, 160930, 160710, 160490]
  len := by decide +kernel

/-- `CES88` (hpp:5691-5731). -/
def CES88 : Table where
  scale := 6
  m := [
    426400, 429170, 431960, 434740, 437530, 440330, 443130, 445930, 448730, 451540, 454350, 457170, 459990,
    462810, 465630, 468450, 471280, 474110, 476940, 479770, 474900, 481290, 487020, 492110, 496610, 500540,
    503940, 506830, 509260, 511250, 512830, 514050, 514920, 515490, 515790, 515840, 515690, 515350, 514880,
    514290, 513630, 512910, 512130, 511290, 510380, 509380, 508290, 507090, 505790, 504360, 502800, 501110,
    499290, 497340, 495280, 493130, 490880, 488550, 486140, 483680, 481160, 478600, 476000, 473370, 470710,
    468040, 465360, 462670, 459990, 457310, 454650, 452010, 449390, 446790, 444210, 441640, 439090, 436560,
    434040, 431530, 429030, 426540, 424060, 421590, 419110, 416620, 414130, 411630, 409110, 406570, 404010,
    401420, 398800, 396140, 393440, 390680, 387870, 384990, 382040, 379020, 375910, 372720, 369440, 366070,
    362630, 359120, 355530, 351880, 348170, 344390, 340560, 336690, 332780, 328850, 324930, 321030, 317180,
    313380, 309660, 306040, 302540, 299160, 295900, 292730, 289650, 286620, 283640, 280680, 277720, 274760,
    271760, 268710, 265610, 262460, 259250, 255980, 252660, 249270, 245810, 242290, 238690, 235030, 231340,
    227650, 224000, 220420, 216950, 213630, 210500, 207590, 204930, 202570, 200480, 198670, 197110, 195800,
    194730, 193870, 193230, 192780, 192520, 192430, 192480, 192640, 192870, 193150, 193430, 193690, 193900,
    194020, 194010, 193860, 193570, 193130, 192570, 191900, 191110, 190230, 189250, 188190, 187060, 185880,
    184680, 183510, 182440, 181510, 180770, 180260, 180050, 180180, 180710, 181670, 183060, 184890, 187150,
    189830, 192930, 196440, 200360, 204680, 209400, 214510, 219960, 225710, 231720, 237950, 244350, 250870,
    257480, 264120, 270760, 277360, 283890, 290350, 296740, 303020, 309210, 315280, 321230, 327050, 332720,
    338240, 343610, 348820, 353900, 358830, 363620, 368280, 372810, 377200, 381470, 385620, 389630, 393500,
    397210, 400760, 404130, 407310, 410300, 413070, 415630, 417960, 420060, 421940, 423610, 425080, 426350,
    427420, 428300, 429000, 429530, 429890, 430090, 430150, 430080, 429900, 429610, 429240, 428800, 428290,
    427740, 427160, 426570, 425990, 425450, 424970, 424580, 424280, 424120, 424110, 424270, 424620, 425190,
    425990, 427030, 428330, 429900, 431770, 433940, 436430, 439260, 442440, 445980, 449880, 454140, 458770,
    463780, 469160, 474920, 481070, 487610, 494540, 501830, 509460, 517400, 525620, 534090, 542780, 551670,
    560730, 569920, 579230, 588620, 598060, 607510, 616950, 626350, 635670, 644880, 653950, 662860, 671560,
    680040, 688250, 696160, 703750, 710990, 717840, 724260, 730240, 735740, 745970, 752850, 759610, 766250,
    772750, 779130, 785380, 791490, 797480, 803340, 809070, 814670, 820140, 825490, 830710, 835810, 840780,
    845630, 850350, 854960, 859450, 863820, 868080, 872220, 876250, 880180, 883990, 887700, 891300, 894810,
    898210, 901510, 904720, 907840, 910860, 913790, 916640, 919400, 922080, 924670, 927190, 929620, 931980,
    934270, 936490, 938640, 940720, 942730, 944680, 946560, 948390, 950150, 951860, 953510, 955110, 956660,
    958160, 959600, 961000, 962350, 963660, 964920, 966140, 967320, 968460, 969560, 970620, 971650, 972650,
    973600, 974530, 975430, 976290, 977120, 977930, 978710, 979460, 980180, 980880]
  len := by decide +kernel

/-- `CES89` (hpp:5732-5772). -/
def CES89 : Table where
  scale := 6
  m := [
    72745, 74530, 76356, 78222, 80130, 82080, 84073, 86111, 88192, 90320, 92493, 94713, 96981, 99297,
    101660, 104080, 106540, 109060, 111630, 114250, 115460, 118710, 121990, 125300, 128610, 131910, 135180,
    138400, 141550, 144610, 147570, 150400, 153090, 155620, 157960, 160110, 162050, 163740, 165190, 166360,
    167240, 167820, 168150, 168300, 168320, 168280, 168240, 168250, 168390, 168710, 169270, 170120, 171220,
    172500, 173900, 175370, 176850, 178270, 179580, 180710, 181600, 182220, 182570, 182680, 182580, 182300,
    181850, 181280, 180600, 179850, 179060, 178230, 177380, 176500, 175560, 174580, 173530, 172410, 171220,
    169940, 168560, 167080, 165500, 163820, 162050, 160170, 158200, 156140, 153980, 151740, 149400, 146980,
    144490, 141950, 139380, 136790, 134200, 131630, 129100, 126630, 124230, 121910, 119680, 117520, 115410,
    113360, 111340, 109350, 107380, 105410, 103440, 101460, 99471, 97490, 95523, 93581, 91674, 89811, 88002,
    86257, 84586, 82996, 81487, 80056, 78699, 77414, 76196, 75044, 73954, 72924, 71949, 71027, 70152, 69319,
    68523, 67757, 67017, 66298, 65592, 64896, 64204, 63511, 62819, 62131, 61451, 60780, 60122, 59481, 58858,
    58257, 57681, 57133, 56615, 56129, 55678, 55263, 54886, 54550, 54257, 54009, 53809, 53657, 53557, 53510,
    53518, 53583, 53707, 53891, 54138, 54450, 54828, 55273, 55781, 56346, 56964, 57627, 58332, 59073, 59843,
    60638, 61452, 62280, 63117, 63959, 64801, 65639, 66468, 67283, 68081, 68856, 69605, 70324, 71020, 71699,
    72370, 73040, 73716, 74406, 75118, 75859, 76637, 77458, 78323, 79234, 80191, 81195, 82245, 83344, 84490,
    85685, 86930, 88224, 89566, 90954, 92386, 93861, 95377, 96931, 98523, 100150, 101810, 103500, 105210,
    106950, 108700, 110450, 112210, 113960, 115710, 117430, 119130, 120810, 122450, 124050, 125620, 127140,
    128610, 130020, 131380, 132680, 133910, 135080, 136180, 137230, 138240, 139220, 140170, 141100, 142030,
    142960, 143900, 144860, 145850, 146870, 147950, 149090, 150300, 151580, 152960, 154440, 156030, 157730,
    159560, 161520, 163610, 165830, 168190, 170680, 173330, 176120, 179060, 182150, 185400, 188800, 192360,
    196070, 199940, 203960, 208140, 212480, 216970, 221620, 226420, 231370, 236470, 241700, 247080, 252580,
    258220, 263980, 269860, 275860, 281980, 288220, 294580, 301070, 307690, 314440, 321320, 328330, 335490,
    342780, 350200, 357730, 365370, 373090, 380880, 388740, 396640, 404580, 412530, 420500, 428460, 436410,
    444320, 452190, 460000, 467730, 475390, 482950, 490390, 499550, 507560, 515570, 523570, 531550, 539530,
    547480, 555400, 563300, 571170, 579000, 586790, 594540, 602240, 609890, 617490, 625030, 632510, 639930,
    647280, 654560, 661770, 668910, 675960, 682940, 689840, 696660, 703390, 710030, 716580, 723050, 729420,
    735700, 741880, 747970, 753960, 759860, 765660, 771360, 776960, 782470, 787870, 793180, 798390, 803500,
    808510, 813420, 818230, 822950, 827570, 832100, 836530, 840860, 845110, 849250, 853310, 857280, 861150,
    864940, 868640, 872260, 875780, 879230, 882590, 885870, 889070, 892190, 895240, 898200, 901100, 903920,
    906660, 909340, 911950, 914490, 916960, 919370, 921710, 923990]
  len := by decide +kernel

/-- `CES90` (hpp:5773-5813). -/
def CES90 : Table where
  scale := 6
  m := [
    221780, 223650, 225540, 227440, 229340, 231270, 233200, 235140, 237090, 239060, 241030, 243020, 245020,
    247030, 249050, 251080, 253120, 255180, 257240, 259320, 261700, 263320, 265330, 267620, 270120, 272710,
    275300, 277800, 280120, 282150, 283800, 285000, 285770, 286160, 286210, 285980, 285520, 284860, 284050,
    283150, 282200, 281240, 280260, 279260, 278210, 277110, 275940, 274680, 273330, 271880, 270300, 268590,
    266760, 264810, 262770, 260630, 258410, 256130, 253800, 251410, 249000, 246560, 244110, 241630, 239140,
    236630, 234110, 231570, 229020, 226470, 223900, 221330, 218750, 216180, 213620, 211070, 208540, 206030,
    203550, 201110, 198700, 196340, 194010, 191710, 189440, 187180, 184930, 182690, 180440, 178180, 175900,
    173600, 171270, 168920, 166560, 164170, 161760, 159340, 156910, 154460, 152000, 149530, 147070, 144610,
    142180, 139790, 137430, 135140, 132910, 130760, 128700, 126740, 124870, 123090, 121390, 119770, 118210,
    116730, 115300, 113930, 112600, 111310, 110060, 108830, 107620, 106420, 105210, 103990, 102760, 101500,
    100200, 98861, 97485, 96079, 94651, 93207, 91754, 90300, 88851, 87416, 86000, 84611, 83256, 81939,
    80667, 79445, 78280, 77177, 76142, 75181, 74300, 73503, 72791, 72160, 71610, 71139, 70745, 70425, 70179,
    70005, 69900, 69862, 69882, 69949, 70054, 70187, 70336, 70492, 70645, 70784, 70900, 70984, 71040, 71073,
    71088, 71090, 71085, 71078, 71075, 71080, 71100, 71140, 71213, 71331, 71507, 71754, 72085, 72512, 73048,
    73706, 74500, 75441, 76537, 77798, 79231, 80844, 82646, 84644, 86847, 89263, 91900, 94761, 97832,
    101090, 104520, 108110, 111820, 115650, 119560, 123560, 127600, 131680, 135770, 139850, 143910, 147910,
    151850, 155700, 159440, 163040, 166500, 169790, 172910, 175860, 178660, 181300, 183780, 186120, 188320,
    190380, 192300, 194090, 195760, 197310, 198760, 200110, 201380, 202560, 203670, 204710, 205700, 206640,
    207540, 208390, 209210, 209990, 210730, 211440, 212120, 212770, 213400, 214010, 214590, 215160, 215710,
    216260, 216790, 217320, 217850, 218370, 218900, 219430, 219970, 220520, 221080, 221640, 222210, 222790,
    223380, 223990, 224600, 225220, 225850, 226480, 227090, 227680, 228250, 228780, 229270, 229720, 230100,
    230420, 230700, 230930, 231150, 231370, 231590, 231840, 232130, 232480, 232900, 233400, 233980, 234620,
    235320, 236060, 236840, 237640, 238460, 239280, 240100, 240900, 241690, 242450, 243200, 243930, 244630,
    245310, 245970, 246600, 247200, 247770, 248320, 248830, 249300, 249730, 250120, 250470, 250760, 251010,
    251200, 251520, 251790, 252060, 252340, 252610, 252880, 253150, 253420, 253690, 253970, 254240, 254510,
    254780, 255060, 255330, 255600, 255880, 256150, 256420, 256700, 256970, 257250, 257520, 257800, 258070,
    258350, 258620, 258900, 259180, 259450, 259730, 260000, 260280, 260560, 260830, 261110, 261390, 261670,
    261940, 262220, 262500, 262780, 263060, 263340, 263620, 263890, 264170, 264450, 264730, 265010, 265290,
    265570, 265850, 266130, 266420, 266700, 266980, 267260, 267540, 267820, 268100, 268390, 268670, 268950,
    269230, 269520, 269800, 270080, 270370, 270650, 270930, 271220, 271500, 271790, 272070, 272360, 272640,
    272930, 273210]
  len := by decide +kernel

/-- `CES91` (hpp:5814-5854). -/
def CES91 : Table where
  scale := 6
  m := [
    29659, 29735, 30120, 30910, 32140, 33792, 35833, 38217, 40943, 44085, 47769, 52163, 57429, 63686, 70954,
    79168, 88215, 97973, 108346, 119276, 130745, 139272, 148185, 157455, 167044, 176905, 186995, 197276,
    207725, 218323, 229051, 239898, 250861, 261941, 273141, 284463, 295915, 307493, 319186, 330962, 342785,
    354613, 366402, 378107, 389684, 401096, 412311, 423307, 434062, 444560, 454787, 464732, 474390, 483749,
    492788, 501498, 509870, 517893, 525540, 532791, 539635, 546061, 552061, 557638, 562815, 567622, 572087,
    576241, 580111, 583716, 587077, 590206, 593118, 595822, 598321, 600611, 602682, 604519, 606103, 607427,
    608495, 609324, 609932, 610343, 610573, 610639, 610551, 610318, 609942, 609428, 608792, 608047, 607200,
    606247, 605195, 604056, 602836, 601536, 600170, 598766, 597343, 595904, 594453, 592999, 591547, 590092,
    588628, 587161, 585694, 584227, 582752, 581265, 579765, 578244, 576693, 575109, 573493, 571853, 570199,
    568549, 566923, 565338, 563800, 562313, 560876, 559486, 558136, 556820, 555528, 554248, 552966, 551660,
    550314, 548916, 547467, 545970, 544429, 542851, 541242, 539602, 537934, 536239, 534526, 532809, 531106,
    529435, 527813, 526257, 524776, 523378, 522066, 520841, 519699, 518632, 517633, 516693, 515799, 514938,
    514099, 513271, 512442, 511602, 510745, 509870, 508976, 508068, 507156, 506250, 505365, 504512, 503709,
    502973, 502319, 501760, 501308, 500973, 500760, 500670, 500699, 500843, 501095, 501439, 501861, 502344,
    502869, 503417, 503970, 504515, 505041, 505540, 506010, 506452, 506871, 507278, 507680, 508091, 508523,
    508990, 509504, 510076, 510715, 511431, 512228, 513109, 514076, 515127, 516260, 517473, 518762, 520122,
    521545, 523022, 524544, 526099, 527673, 529253, 530831, 532400, 533959, 535507, 537053, 538605, 540175,
    541775, 543416, 545110, 546866, 548691, 550587, 552553, 554584, 556670, 558802, 560968, 563159, 565367,
    567590, 569826, 572076, 574339, 576610, 578875, 581119, 583318, 585450, 587491, 589422, 591231, 592910,
    594454, 595864, 597150, 598327, 599418, 600450, 601456, 602469, 603514, 604605, 605749, 606944, 608180,
    609443, 610717, 611989, 613245, 614470, 615654, 616783, 617852, 618857, 619801, 620699, 621571, 622438,
    623315, 624212, 625132, 626066, 626997, 627900, 628765, 629575, 630313, 630959, 631500, 631929, 632241,
    632442, 632546, 632582, 632576, 632549, 632514, 632478, 632336, 632312, 632364, 632431, 632434, 632349,
    631869, 631270, 630558, 629746, 628840, 627849, 626780, 625644, 624451, 623210, 621928, 620607, 619242,
    617821, 616327, 614749, 613078, 611308, 609442, 607494, 605480, 603413, 601315, 599215, 597151, 595158,
    593262, 591485, 589834, 588300, 586859, 585481, 584140, 582809, 581463, 580184, 578724, 577099, 575349,
    573542, 571696, 570118, 568539, 566958, 565376, 563793, 562208, 560622, 559035, 557447, 555858, 554267,
    552676, 551083, 549489, 547894, 546299, 544702, 543104, 541505, 539906, 538306, 536704, 535102, 533500,
    531897, 530293, 528688, 527083, 525478, 523871, 522265, 520657, 519050, 517442, 515833, 514225, 512616,
    511007, 509397, 507789, 506180, 504570, 502960, 501349, 499738, 498126, 496514, 494902, 493290, 491678,
    490066, 488455, 486843, 485232, 483620, 482010, 480400, 478790]
  len := by decide +kernel

/-- `CES92` (hpp:5855-5895). -/
def CES92 : Table where
  scale := 6
  m := [
    5260, 8165, 11513, 14950, 18986, 24483, 30356, 36139, 41619, 46919, 51650, 55890, 60028, 64418, 68980,
    73734, 78563, 83261, 87780, 92207, 96701, 101293, 105973, 110737, 115562, 120482, 125563, 130789,
    136153, 141616, 147052, 152431, 157753, 163019, 168272, 173554, 178816, 183998, 189103, 194102, 199025,
    203942, 208860, 213757, 218606, 223370, 227988, 232458, 236784, 240956, 244973, 248849, 252592, 256212,
    259747, 263213, 266606, 269933, 273181, 276317, 279320, 282178, 284872, 287406, 289791, 292027, 294074,
    295895, 297472, 298812, 299902, 300780, 301492, 302067, 302473, 302696, 302736, 302617, 302362, 301998,
    301543, 301041, 300470, 299808, 299062, 298263, 297410, 296528, 295636, 294738, 293857, 292966, 292029,
    291046, 290022, 288921, 287750, 286534, 285250, 283890, 282468, 280970, 279409, 277801, 276152, 274454,
    272715, 270918, 269055, 267130, 265144, 263112, 261050, 258977, 256915, 254876, 252869, 250905, 248995,
    247135, 245322, 243570, 241857, 240168, 238485, 236787, 235054, 233275, 231433, 229528, 227558, 225512,
    223409, 221278, 219123, 216957, 214807, 212666, 210529, 208415, 206344, 204319, 202366, 200462, 198596,
    196761, 194964, 193191, 191466, 189792, 188162, 186562, 184995, 183449, 181934, 180448, 178996, 177569,
    176163, 174766, 173397, 172069, 170787, 169551, 168376, 167254, 166183, 165177, 164244, 163390, 162626,
    161949, 161348, 160827, 160383, 160004, 159691, 159439, 159231, 159063, 158930, 158824, 158743, 158690,
    158671, 158684, 158729, 158797, 158896, 159018, 159176, 159361, 159580, 159841, 160151, 160484, 160858,
    161274, 161740, 162250, 162830, 163457, 164150, 164911, 165732, 166612, 167577, 168614, 169720, 170917,
    172219, 173622, 175137, 176774, 178530, 180408, 182434, 184621, 186987, 189553, 192328, 195308, 198500,
    201927, 205595, 209527, 213749, 218264, 223068, 228148, 233499, 239095, 244944, 251031, 257342, 263842,
    270529, 277365, 284320, 291371, 298504, 305699, 312958, 320279, 327681, 335178, 342766, 350425, 358153,
    365920, 373727, 381617, 389588, 397642, 405786, 413987, 422183, 430360, 438497, 446565, 454565, 462458,
    470204, 477791, 485187, 492361, 499291, 505980, 512397, 518531, 524388, 529981, 535327, 540436, 545325,
    550008, 554483, 558757, 562840, 566758, 570493, 574074, 577567, 581031, 584494, 587992, 591541, 595091,
    598621, 602144, 605699, 609305, 612904, 616428, 619817, 622869, 625653, 628230, 630680, 633010, 635228,
    637651, 640030, 642406, 644786, 647172, 649577, 652004, 654420, 656850, 659312, 661817, 664354, 666920,
    669509, 672117, 674741, 677410, 680132, 682914, 685752, 688678, 691680, 694701, 697691, 700595, 703355,
    705942, 708402, 710759, 713026, 715189, 717219, 719117, 720946, 722755, 724735, 726844, 729082, 731366,
    733696, 736072, 738168, 740253, 742328, 744391, 746444, 748485, 750516, 752536, 754545, 756543, 758530,
    760506, 762471, 764424, 766367, 768299, 770219, 772128, 774026, 775912, 777788, 779652, 781505, 783347,
    785178, 786997, 788806, 790602, 792388, 794163, 795926, 797678, 799419, 801149, 802867, 804574, 806270,
    807955, 809629, 811366, 813088, 814795, 816487, 818164, 819826, 821472, 823104, 824721, 826323, 827911,
    829483, 831041, 832584, 834113, 835626, 837126, 838610, 840080]
  len := by decide +kernel

/-- `CES93` (hpp:5896-5936). -/
def CES93 : Table where
  scale := 6
  m := [
    230770, 233310, 235850, 238400, 240960, 243520, 246080, 248650, 251220, 253790, 256360, 258930, 261500,
    264070, 266640, 269200, 271760, 274320, 276870, 279410, 281950, 284480, 287010, 289530, 292060, 294600,
    297150, 299720, 302300, 304910, 307540, 310200, 312910, 315650, 318450, 321300, 324210, 327190, 330250,
    333390, 336620, 339940, 343320, 346740, 350170, 353570, 356930, 360200, 363360, 366390, 369250, 371920,
    374410, 376750, 378960, 381050, 383050, 384980, 386860, 388700, 390540, 392380, 394230, 396080, 397920,
    399750, 401550, 403320, 405050, 406750, 408390, 409970, 411480, 412900, 414210, 415390, 416430, 417300,
    418000, 418490, 418770, 418820, 418670, 418330, 417830, 417190, 416440, 415610, 414710, 413780, 412830,
    411880, 410930, 409930, 408860, 407710, 406440, 405030, 403460, 401690, 399710, 397500, 395070, 392460,
    389700, 386820, 383840, 380790, 377720, 374630, 371570, 368560, 365590, 362680, 359820, 357000, 354230,
    351500, 348810, 346170, 343560, 340990, 338460, 335960, 333500, 331080, 328700, 326350, 324040, 321760,
    319520, 317320, 315150, 313040, 310980, 308970, 307030, 305160, 303370, 301660, 300030, 298490, 297040,
    295680, 294380, 293160, 292000, 290900, 289850, 288840, 287880, 286950, 286060, 285220, 284410, 283650,
    282940, 282290, 281680, 281140, 280660, 280240, 279880, 279580, 279340, 279140, 278990, 278890, 278820,
    278790, 278800, 278840, 278910, 279010, 279160, 279350, 279590, 279880, 280220, 280610, 281070, 281590,
    282160, 282790, 283470, 284190, 284950, 285740, 286560, 287410, 288270, 289150, 290050, 290980, 291940,
    292950, 294000, 295120, 296300, 297560, 298890, 300310, 301820, 303410, 305080, 306830, 308660, 310560,
    312540, 314580, 316700, 318880, 321130, 323460, 325850, 328320, 330870, 333500, 336210, 339010, 341890,
    344860, 347920, 351070, 354310, 357640, 361050, 364550, 368140, 371820, 375580, 379430, 383360, 387380,
    391480, 395670, 399930, 404290, 408720, 413230, 417830, 422510, 427260, 432110, 437030, 442040, 447140,
    452320, 457590, 462950, 468400, 473940, 479560, 485250, 491000, 496790, 502620, 508470, 514340, 520200,
    526060, 531900, 537710, 543500, 549270, 555020, 560740, 566430, 572100, 577750, 583370, 588960, 594520,
    600030, 605490, 610880, 616210, 621460, 626610, 631680, 636630, 641470, 646200, 650810, 655300, 659680,
    663950, 668090, 672130, 676040, 679840, 683520, 687090, 690540, 693870, 697090, 700200, 703190, 706070,
    708830, 711480, 714020, 716450, 718790, 721040, 723210, 725300, 727330, 729300, 731210, 733090, 734930,
    736730, 738490, 740220, 741890, 743530, 745110, 746650, 748140, 749570, 750950, 752260, 753520, 754700,
    755810, 756850, 757800, 758670, 759450, 760130, 760720, 761210, 761630, 761970, 762260, 762490, 762670,
    762820, 762950, 763060, 763160, 763270, 763390, 763520, 763690, 763900, 764150, 764470, 764840, 765300,
    764990, 765170, 765350, 765520, 765700, 765880, 766050, 766230, 766400, 766580, 766750, 766930, 767110,
    767280, 767460, 767630, 767810, 767980, 768160, 768330, 768500, 768680, 768850, 769030, 769200, 769380,
    769550, 769720, 769900, 770070, 770250, 770420, 770590, 770770, 770940, 771110, 771290, 771460, 771630,
    771810, 771980, 772150, 772320, 772500, 772670, 772840, 773010, 773190, 773360]
  len := by decide +kernel

/-- `CES94` (hpp:5937-5977). -/
def CES94 : Table where
  scale := 6
  m := [
    61017, 62174, 63351, 64549, 65767, 67008, 68269, 69553, 70859, 72188, 73540, 74915, 76314, 77736, 79183,
    80654, 82150, 83672, 85219, 86792, 88100, 89822, 91571, 93344, 95136, 96944, 98762, 100590, 102420,
    104240, 106070, 107880, 109680, 111460, 113230, 114960, 116670, 118340, 119980, 121570, 123120, 124610,
    126070, 127470, 128840, 130160, 131450, 132700, 133920, 135120, 136290, 137430, 138540, 139610, 140640,
    141620, 142540, 143390, 144170, 144860, 145470, 145990, 146410, 146750, 147010, 147180, 147280, 147310,
    147270, 147170, 147000, 146780, 146500, 146160, 145760, 145280, 144740, 144120, 143430, 142650, 141800,
    140860, 139840, 138750, 137590, 136370, 135090, 133770, 132400, 130990, 129550, 128080, 126590, 125060,
    123520, 121940, 120330, 118700, 117040, 115340, 113620, 111870, 110100, 108320, 106530, 104760, 103000,
    101280, 99590, 97951, 96369, 94854, 93401, 92006, 90664, 89368, 88113, 86895, 85708, 84546, 83405,
    82279, 81170, 80077, 79003, 77947, 76912, 75898, 74905, 73936, 72992, 72072, 71177, 70308, 69464, 68645,
    67851, 67082, 66339, 65620, 64927, 64259, 63616, 63001, 62413, 61854, 61324, 60824, 60356, 59920, 59516,
    59146, 58810, 58507, 58236, 57997, 57790, 57614, 57469, 57355, 57270, 57216, 57190, 57191, 57219, 57272,
    57350, 57451, 57574, 57718, 57883, 58066, 58268, 58485, 58717, 58962, 59218, 59485, 59761, 60044, 60333,
    60627, 60926, 61233, 61548, 61874, 62211, 62561, 62925, 63305, 63702, 64118, 64553, 65010, 65489, 65992,
    66520, 67074, 67656, 68267, 68908, 69581, 70288, 71032, 71814, 72639, 73509, 74425, 75391, 76410, 77484,
    78615, 79809, 81070, 82403, 83813, 85305, 86883, 88552, 90317, 92184, 94155, 96234, 98419, 100710,
    103110, 105630, 108250, 110980, 113830, 116790, 119860, 123050, 126370, 129820, 133410, 137140, 141030,
    145070, 149270, 153640, 158180, 162890, 167760, 172770, 177910, 183180, 188560, 194050, 199630, 205300,
    211040, 216850, 222750, 228720, 234770, 240900, 247110, 253400, 259780, 266240, 272790, 279420, 286130,
    292910, 299750, 306670, 313630, 320660, 327730, 334840, 342000, 349190, 356420, 363670, 370960, 378270,
    385610, 392970, 400340, 407730, 415140, 422550, 429960, 437360, 444750, 452130, 459480, 466810, 474090,
    481340, 488530, 495680, 502790, 509850, 516860, 523830, 530750, 537630, 544470, 551270, 558020, 564730,
    571390, 578000, 584550, 591040, 597460, 603810, 610090, 616300, 622420, 628450, 634400, 640250, 646000,
    651650, 657200, 662630, 667950, 673160, 679550, 685040, 690490, 695880, 701210, 706500, 711720, 716900,
    722010, 727070, 732070, 737010, 741900, 746720, 751480, 756190, 760830, 765410, 769930, 774390, 778790,
    783120, 787390, 791610, 795760, 799850, 803870, 807840, 811740, 815580, 819370, 823090, 826750, 830350,
    833890, 837370, 840790, 844150, 847460, 850710, 853900, 857030, 860110, 863130, 866100, 869010, 871870,
    874670, 877420, 880120, 882770, 885370, 887920, 890410, 892860, 895260, 897620, 899920, 902180, 904400,
    906570, 908690, 910770, 912810, 914810, 916760, 918670, 920550, 922380, 924180, 925930, 927650, 929340,
    930980, 932590, 934170, 935710, 937220, 938690]
  len := by decide +kernel

/-- `CES95` (hpp:5978-6018). -/
def CES95 : Table where
  scale := 6
  m := [
    73718, 76853, 80110, 83493, 87005, 90650, 94431, 98354, 102420, 106640, 111000, 115530, 120210, 125050,
    130070, 135250, 140600, 146130, 151840, 157740, 164280, 170140, 176340, 182870, 189690, 196780, 204120,
    211680, 219430, 227350, 235410, 243590, 251860, 260190, 268560, 276950, 285320, 293650, 301920, 310100,
    318160, 326090, 333880, 341530, 349040, 356430, 363680, 370800, 377800, 384680, 391440, 398070, 404550,
    410830, 416890, 422670, 428150, 433290, 438040, 442380, 446270, 449670, 452610, 455130, 457270, 459050,
    460510, 461700, 462630, 463350, 463900, 464300, 464560, 464700, 464720, 464640, 464450, 464180, 463810,
    463380, 462880, 462310, 461680, 460970, 460170, 459260, 458240, 457090, 455810, 454380, 452790, 451030,
    449130, 447090, 444940, 442690, 440370, 437990, 435560, 433120, 430670, 428240, 425820, 423410, 421010,
    418620, 416220, 413830, 411440, 409030, 406620, 404200, 401770, 399320, 396860, 394370, 391870, 389350,
    386810, 384250, 381660, 379040, 376400, 373730, 371040, 368320, 365590, 362830, 360060, 357260, 354450,
    351610, 348780, 345940, 343120, 340320, 337560, 334840, 332170, 329560, 327030, 324580, 322220, 319930,
    317730, 315620, 313580, 311620, 309750, 307960, 306240, 304610, 303050, 301560, 300150, 298800, 297520,
    296300, 295140, 294040, 292990, 292000, 291050, 290150, 289290, 288480, 287700, 286970, 286260, 285590,
    284940, 284330, 283740, 283200, 282710, 282270, 281900, 281590, 281360, 281220, 281170, 281220, 281360,
    281610, 281950, 282380, 282910, 283530, 284250, 285060, 285960, 286950, 288050, 289260, 290590, 292060,
    293680, 295460, 297400, 299530, 301860, 304390, 307120, 310070, 313240, 316620, 320220, 324050, 328110,
    332390, 336920, 341670, 346660, 351870, 357300, 362930, 368770, 374800, 381020, 387420, 393990, 400720,
    407610, 414650, 421840, 429150, 436600, 444160, 451830, 459600, 467460, 475410, 483420, 491460, 499490,
    507500, 515450, 523320, 531080, 538690, 546140, 553390, 560460, 567360, 574090, 580680, 587140, 593470,
    599690, 605820, 611870, 617850, 623760, 629620, 635430, 641190, 646930, 652630, 658320, 663990, 669650,
    675320, 680980, 686640, 692300, 697960, 703610, 709250, 714880, 720500, 726110, 731710, 737280, 742800,
    748270, 753670, 758970, 764170, 769260, 774200, 779000, 783640, 788110, 792410, 796530, 800480, 804240,
    807820, 811220, 814420, 817420, 820240, 822870, 825340, 827670, 829880, 831990, 834010, 835960, 837870,
    839740, 841610, 843450, 845270, 847060, 848810, 850500, 852150, 853720, 855230, 856660, 858000, 859250,
    860400, 861430, 862350, 863140, 863810, 864330, 864700, 864920, 867590, 868580, 869560, 870540, 871510,
    872470, 873430, 874390, 875330, 876270, 877210, 878140, 879060, 879980, 880890, 881790, 882690, 883580,
    884470, 885350, 886220, 887090, 887960, 888810, 889660, 890510, 891350, 892190, 893010, 893840, 894660,
    895470, 896270, 897080, 897870, 898660, 899450, 900230, 901000, 901770, 902530, 903290, 904040, 904790,
    905530, 906270, 907000, 907730, 908450, 909170, 909880, 910580, 911290, 911980, 912670, 913360, 914040,
    914720, 915390, 916060, 916720, 917380, 918030, 918680, 919320, 919960, 920600, 921230, 921850, 922470,
    923090, 923700, 924310, 924910, 925510, 926100, 926690, 927280, 927860]
  len := by decide +kernel

/-- `CES96` (hpp:6019-6059). -/
def CES96 : Table where
  scale := 6
  m := [
    338510, 343040, 347600, 352190, 356810, 361450, 366120, 370810, 375530, 380270, 385040, 389830, 394630,
    399460, 404310, 409180, 414070, 418970, 423890, 428820, 433940, 438690, 443550, 448500, 453520, 458590,
    463690, 468810, 473930, 479020, 484080, 489070, 493990, 498810, 503510, 508080, 512500, 516760, 520820,
    524670, 528300, 531700, 534880, 537870, 540700, 543400, 546000, 548520, 551000, 553450, 555920, 558420,
    560920, 563390, 565790, 568100, 570280, 572300, 574110, 575700, 577020, 578050, 578800, 579290, 579550,
    579600, 579450, 579120, 578650, 578040, 577320, 576520, 575620, 574640, 573590, 572450, 571240, 569960,
    568610, 567190, 565710, 564160, 562550, 560880, 559130, 557310, 555410, 553430, 551360, 549200, 546950,
    544610, 542180, 539660, 537080, 534430, 531720, 528960, 526160, 523320, 520460, 517580, 514680, 511770,
    508850, 505930, 503010, 500100, 497190, 494290, 491410, 488550, 485710, 482880, 480080, 477290, 474520,
    471760, 469020, 466300, 463590, 460900, 458220, 455550, 452890, 450250, 447620, 445000, 442390, 439790,
    437200, 434620, 432050, 429520, 427030, 424590, 422220, 419910, 417690, 415570, 413550, 411650, 409860,
    408190, 406630, 405170, 403830, 402590, 401450, 400420, 399490, 398660, 397920, 397270, 396720, 396250,
    395870, 395560, 395340, 395190, 395110, 395100, 395160, 395290, 395490, 395750, 396090, 396500, 396990,
    397540, 398160, 398860, 399640, 400490, 401420, 402440, 403560, 404760, 406060, 407460, 408970, 410580,
    412290, 414100, 416010, 418000, 420080, 422240, 424470, 426780, 429150, 431580, 434080, 436650, 439310,
    442060, 444900, 447850, 450910, 454080, 457370, 460800, 464350, 468030, 471830, 475740, 479760, 483900,
    488140, 492480, 496920, 501450, 506080, 510800, 515620, 520530, 525540, 530650, 535850, 541150, 546550,
    552040, 557630, 563320, 569110, 575000, 580990, 587080, 593270, 599560, 605960, 612460, 619040, 625680,
    632370, 639090, 645820, 652530, 659210, 665840, 672410, 678880, 685270, 691560, 697770, 703870, 709880,
    715800, 721610, 727330, 732940, 738450, 743860, 749160, 754350, 759430, 764410, 769270, 774020, 778660,
    783180, 787590, 791880, 796050, 800110, 804050, 807870, 811580, 815170, 818650, 822010, 825260, 828390,
    831390, 834280, 837040, 839680, 842190, 844560, 846810, 848920, 850890, 852730, 854440, 856030, 857510,
    858880, 860150, 861320, 862400, 863390, 864300, 865150, 865950, 866730, 867490, 868260, 869050, 869890,
    870780, 871740, 872790, 873920, 875110, 876350, 877610, 878900, 880180, 881440, 882680, 883870, 885000,
    886050, 887010, 887870, 888600, 889190, 889630, 889900, 889990, 889880, 892460, 893240, 894010, 894780,
    895540, 896300, 897050, 897800, 898540, 899280, 900010, 900740, 901460, 902180, 902900, 903610, 904310,
    905010, 905710, 906400, 907090, 907770, 908450, 909120, 909790, 910450, 911110, 911770, 912420, 913070,
    913710, 914350, 914980, 915610, 916240, 916860, 917480, 918090, 918700, 919300, 919900, 920500, 921090,
    921680, 922260, 922840, 923420, 923990, 924560, 925130, 925690, 926240, 926800, 927350, 927890, 928430,
    928970, 929500, 930040, 930560, 931080, 931600, 932120, 932630, 933140, 933650, 934150, 934640, 935140,
    935630, 936120, 936600, 937080, 937560, 938030, 938500, 938970, 939430, 939890]
  len := by decide +kernel

/-- `CES97` (hpp:6060-6100). -/
def CES97 : Table where
  scale := 6
  m := [
    119310, 121730, 124190, 126690, 129240, 131830, 134460, 137130, 139860, 142620, 145440, 148290, 151200,
    154150, 157150, 160190, 163280, 166420, 169610, 172850, 176600, 179190, 182410, 186120, 190200, 194510,
    198910, 203260, 207440, 211290, 214700, 217550, 219880, 221750, 223230, 224380, 225270, 225960, 226520,
    227010, 227500, 228040, 228630, 229270, 229940, 230630, 231350, 232070, 232790, 233510, 234200, 234870,
    235500, 236080, 236610, 237070, 237460, 237770, 237980, 238100, 238100, 237980, 237750, 237380, 236880,
    236250, 235470, 234550, 233490, 232270, 230900, 229370, 227690, 225870, 223910, 221820, 219620, 217310,
    214900, 212390, 209800, 207130, 204410, 201620, 198800, 195950, 193090, 190220, 187350, 184510, 181700,
    178930, 176200, 173490, 170810, 168140, 165490, 162830, 160170, 157490, 154800, 152080, 149330, 146560,
    143760, 140930, 138080, 135200, 132290, 129360, 126400, 123420, 120430, 117450, 114520, 111630, 108830,
    106120, 103540, 101090, 98800, 96689, 94752, 92984, 91378, 89928, 88628, 87471, 86452, 85564, 84800,
    84153, 83603, 83132, 82718, 82341, 81981, 81617, 81229, 80797, 80300, 79721, 79060, 78317, 77494, 76594,
    75619, 74570, 73449, 72258, 71000, 69679, 68312, 66920, 65524, 64144, 62800, 61513, 60304, 59193, 58200,
    57350, 56684, 56246, 56080, 56231, 56744, 57663, 59032, 60896, 63300, 66280, 69839, 73974, 78681, 83956,
    89794, 96192, 103140, 110650, 118700, 127280, 136300, 145660, 155250, 164980, 174750, 184440, 193970,
    203220, 212100, 220520, 228450, 235890, 242830, 249270, 255180, 260570, 265420, 269740, 273500, 276710,
    279400, 281600, 283340, 284660, 285590, 286160, 286420, 286380, 286100, 285590, 284890, 284010, 282980,
    281810, 280530, 279160, 277710, 276220, 274700, 273170, 271650, 270140, 268650, 267210, 265810, 264470,
    263190, 262000, 260900, 259900, 258990, 258190, 257470, 256850, 256320, 255870, 255500, 255210, 255000,
    254860, 254800, 254790, 254850, 254960, 255130, 255340, 255590, 255880, 256200, 256550, 256930, 257360,
    257830, 258350, 258940, 259590, 260310, 261110, 262000, 262980, 264050, 265200, 266450, 267780, 269200,
    270700, 272290, 273950, 275700, 277520, 279410, 281340, 283290, 285250, 287190, 289110, 290980, 292780,
    294500, 296120, 297620, 299010, 300280, 301420, 302420, 303270, 303970, 304520, 304900, 305110, 305170,
    305070, 304850, 304500, 304040, 303490, 302860, 302160, 301400, 300590, 299730, 298810, 297810, 296730,
    295550, 294270, 292870, 291350, 289700, 287910, 286020, 284080, 282130, 280210, 278380, 276680, 275150,
    273840, 272800, 271190, 269800, 268420, 267050, 265680, 264310, 262950, 261590, 260240, 258890, 257550,
    256210, 254880, 253550, 252220, 250900, 249580, 248270, 246970, 245660, 244370, 243070, 241790, 240500,
    239220, 237950, 236680, 235420, 234150, 232900, 231650, 230400, 229160, 227920, 226690, 225470, 224240,
    223030, 221810, 220600, 219400, 218200, 217010, 215820, 214630, 213450, 212280, 211110, 209940, 208780,
    207630, 206470, 205330, 204180, 203050, 201910, 200790, 199660, 198550, 197430, 196320, 195220, 194120,
    193020, 191930, 190850, 189770, 188690, 187620, 186550, 185490, 184430, 183380, 182330, 181290, 180250,
    179220, 178190, 177160]
  len := by decide +kernel

/-- `CES98` (hpp:6101-6141). -/
def CES98 : Table where
  scale := 6
  m := [
    274250, 275980, 277720, 279460, 281210, 282970, 284730, 286500, 288280, 290060, 291850, 293650, 295450,
    297260, 299080, 300900, 302730, 304560, 306400, 308250, 310400, 311790, 313540, 315580, 317850, 320280,
    322820, 325400, 327960, 330440, 332770, 334910, 336870, 338660, 340310, 341840, 343260, 344610, 345890,
    347130, 348360, 349580, 350790, 351980, 353130, 354240, 355270, 356240, 357110, 357890, 358550, 359080,
    359480, 359730, 359820, 359750, 359490, 359050, 358410, 357570, 356500, 355210, 353700, 351970, 350030,
    347890, 345560, 343040, 340330, 337450, 334400, 331190, 327830, 324330, 320720, 316990, 313180, 309290,
    305330, 301320, 297280, 293210, 289130, 285040, 280950, 276870, 272790, 268730, 264700, 260700, 256730,
    252810, 248940, 245120, 241370, 237680, 234070, 230540, 227100, 223740, 220490, 217340, 214280, 211310,
    208430, 205610, 202860, 200160, 197500, 194890, 192300, 189740, 187190, 184670, 182180, 179700, 177240,
    174810, 172400, 170010, 167650, 165310, 163010, 160750, 158550, 156420, 154380, 152430, 150580, 148860,
    147270, 145820, 144510, 143330, 142280, 141360, 140560, 139880, 139310, 138850, 138490, 138230, 138060,
    137950, 137900, 137880, 137890, 137900, 137900, 137870, 137810, 137690, 137520, 137310, 137070, 136790,
    136490, 136170, 135840, 135510, 135180, 134860, 134570, 134330, 134150, 134050, 134050, 134180, 134430,
    134840, 135430, 136210, 137190, 138410, 139890, 141630, 143670, 146030, 148720, 151770, 155190, 159010,
    163230, 167860, 172900, 178350, 184240, 190550, 197290, 204470, 212100, 220170, 228660, 237530, 246750,
    256290, 266120, 276200, 286510, 297000, 307650, 318420, 329280, 340200, 351130, 362050, 372920, 383710,
    394370, 404880, 415200, 425300, 435140, 444680, 453900, 462760, 471230, 479270, 486840, 493920, 500470,
    506470, 511930, 516880, 521370, 525410, 529040, 532290, 535190, 537770, 540060, 542090, 543870, 545440,
    546790, 547960, 548950, 549790, 550480, 551060, 551540, 551930, 552260, 552530, 552790, 553030, 553290,
    553580, 553920, 554330, 554840, 555450, 556180, 557040, 558010, 559120, 560360, 561740, 563270, 564940,
    566770, 568760, 570910, 573220, 575710, 578380, 581230, 584270, 587490, 590920, 594540, 598370, 602390,
    606590, 610950, 615480, 620140, 624930, 629840, 634860, 639960, 645140, 650400, 655720, 661110, 666550,
    672040, 677580, 683150, 688760, 694390, 700040, 705700, 711350, 716970, 722550, 728070, 733520, 738880,
    744120, 749250, 754240, 759110, 763850, 768500, 773060, 777530, 781940, 786300, 790610, 794890, 799140,
    803320, 807390, 811280, 814940, 818330, 821400, 824090, 826360, 828140, 830940, 833300, 835630, 837940,
    840220, 842480, 844710, 846910, 849090, 851250, 853370, 855480, 857550, 859610, 861630, 863640, 865620,
    867570, 869500, 871410, 873290, 875150, 876980, 878790, 880580, 882350, 884090, 885810, 887510, 889190,
    890840, 892480, 894090, 895680, 897250, 898800, 900320, 901830, 903320, 904780, 906230, 907660, 909060,
    910450, 911820, 913170, 914500, 915810, 917110, 918380, 919640, 920880, 922100, 923310, 924500, 925670,
    926820, 927960, 929080, 930190, 931280, 932350, 933410, 934460, 935480, 936500, 937490, 938480, 939450,
    940400, 941340, 942270, 943180, 944080, 944960, 945840, 946700, 947540, 948380]
  len := by decide +kernel

/-- `CES99` (hpp:6142-6182). -/
def CES99 : Table where
  scale := 6
  m := [
    169580, 171400, 173230, 175080, 176950, 178820, 180720, 182630, 184560, 186500, 188460, 190430, 192420,
    194420, 196440, 198480, 200530, 202600, 204680, 206780, 209200, 210850, 212900, 215240, 217790, 220440,
    223100, 225670, 228060, 230170, 231900, 233180, 234040, 234520, 234680, 234570, 234220, 233710, 233060,
    232350, 231600, 230870, 230150, 229420, 228690, 227940, 227140, 226310, 225410, 224450, 223400, 222260,
    221040, 219750, 218380, 216950, 215480, 213950, 212390, 210810, 209200, 207580, 205950, 204310, 202660,
    201000, 199330, 197650, 195970, 194290, 192600, 190910, 189210, 187520, 185830, 184140, 182450, 180770,
    179110, 177450, 175800, 174170, 172540, 170930, 169330, 167730, 166140, 164550, 162970, 161390, 159800,
    158210, 156620, 155030, 153430, 151830, 150230, 148630, 147020, 145410, 143800, 142190, 140580, 138970,
    137380, 135810, 134260, 132740, 131250, 129810, 128400, 127040, 125730, 124460, 123230, 122040, 120880,
    119740, 118640, 117560, 116500, 115460, 114430, 113400, 112390, 111370, 110340, 109310, 108260, 107190,
    106100, 104980, 103840, 102680, 101500, 100320, 99129, 97937, 96748, 95568, 94400, 93249, 92122, 91024,
    89962, 88943, 87972, 87056, 86201, 85413, 84700, 84065, 83508, 83025, 82614, 82272, 81996, 81784, 81632,
    81539, 81500, 81513, 81570, 81664, 81788, 81932, 82090, 82253, 82415, 82566, 82700, 82810, 82900, 82973,
    83034, 83088, 83138, 83190, 83248, 83317, 83400, 83504, 83643, 83829, 84078, 84405, 84823, 85347, 85992,
    86771, 87700, 88793, 90063, 91525, 93193, 95080, 97201, 99570, 102200, 105110, 108300, 111800, 115620,
    119770, 124270, 129140, 134380, 140030, 146090, 152570, 159500, 166880, 174680, 182860, 191380, 200200,
    209290, 218600, 228100, 237750, 247500, 257330, 267220, 277160, 287160, 297190, 307250, 317350, 327450,
    337580, 347700, 357820, 367910, 377960, 387930, 397820, 407590, 417230, 426710, 436000, 445100, 453980,
    462620, 471030, 479200, 487120, 494790, 502190, 509340, 516210, 522800, 529110, 535140, 540900, 546380,
    551590, 556540, 561220, 565630, 569790, 573700, 577360, 580770, 583970, 586950, 589750, 592360, 594810,
    597100, 599260, 601300, 603230, 605050, 606770, 608390, 609920, 611350, 612690, 613950, 615110, 616200,
    617210, 618140, 619010, 619820, 620570, 621280, 621950, 622590, 623200, 623800, 624380, 624950, 625500,
    626040, 626560, 627050, 627530, 627980, 628400, 628800, 629170, 629510, 629830, 630130, 630410, 630680,
    630940, 631190, 631450, 631700, 631960, 632210, 632460, 632710, 632940, 633160, 633360, 633530, 633680,
    633800, 633990, 634150, 634310, 634470, 634630, 634790, 634940, 635100, 635260, 635420, 635580, 635740,
    635900, 636060, 636220, 636380, 636540, 636700, 636860, 637020, 637180, 637340, 637500, 637660, 637820,
    637970, 638130, 638290, 638450, 638610, 638770, 638930, 639090, 639250, 639410, 639560, 639720, 639880,
    640040, 640200, 640360, 640520, 640680, 640830, 640990, 641150, 641310, 641470, 641630, 641790, 641940,
    642100, 642260, 642420, 642580, 642740, 642890, 643050, 643210, 643370, 643530, 643680, 643840, 644000,
    644160, 644320, 644470, 644630, 644790, 644950, 645110, 645260, 645420, 645580, 645740, 645890, 646050,
    646210, 646370]
  len := by decide +kernel

end CS.Data.TM30
