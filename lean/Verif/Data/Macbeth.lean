import Verif.Data.Table

/-! Colour checker reflectances.  Generated by `tools/gen_data.py`. -/

namespace CS.Data.Macbeth

/-- `Macbeth01` (hpp:6198-6244). -/
def Macbeth01 : Table where
  scale := 9
  m := [
    54745777, 55103879, 55461981, 55820083, 56178185, 56536288, 56894390, 57252492, 57610594, 57968696,
    58326798, 58610495, 58894191, 59177887, 59461584, 59745280, 60028976, 60312673, 60596369, 60880065,
    61163762, 61285862, 61407963, 61530064, 61652164, 61774265, 61896366, 62018466, 62140567, 62262668,
    62384768, 62377367, 62369965, 62362563, 62355162, 62347760, 62340358, 62332957, 62325555, 62318153,
    62310752, 62286679, 62262607, 62238535, 62214462, 62190390, 62166318, 62142245, 62118173, 62094101,
    62070028, 62045879, 62021730, 61997580, 61973431, 61949282, 61925132, 61900983, 61876834, 61852684,
    61828535, 61804253, 61779972, 61755690, 61731408, 61707127, 61682845, 61658563, 61634282, 61610000,
    61585718, 61581288, 61576857, 61572426, 61567995, 61563564, 61559133, 61554703, 61550272, 61545841,
    61541410, 61549581, 61557751, 61565922, 61574092, 61582263, 61590433, 61598604, 61606774, 61614945,
    61623115, 61663561, 61704008, 61744454, 61784900, 61825347, 61865793, 61906239, 61946686, 61987132,
    62027578, 62121243, 62214907, 62308571, 62402235, 62495899, 62589563, 62683228, 62776892, 62870556,
    62964220, 63185879, 63407537, 63629196, 63850855, 64072513, 64294172, 64515831, 64737489, 64959148,
    65180807, 65689872, 66198937, 66708003, 67217068, 67726133, 68235199, 68744264, 69253329, 69762395,
    70271460, 70883902, 71496344, 72108786, 72721227, 73333669, 73946111, 74558553, 75170995, 75783437,
    76395878, 76705358, 77014837, 77324316, 77633795, 77943274, 78252753, 78562233, 78871712, 79181191,
    79490670, 79669186, 79847702, 80026218, 80204734, 80383250, 80561766, 80740282, 80918798, 81097314,
    81275830, 81577204, 81878577, 82179951, 82481324, 82782698, 83084071, 83385445, 83686818, 83988192,
    84289565, 84918979, 85548393, 86177807, 86807221, 87436635, 88066049, 88695463, 89324877, 89954291,
    90583705, 91815509, 93047312, 94279116, 95510920, 96742723, 97974527, 99206331, 100438134, 101669938,
    102901742, 104516701, 106131660, 107746619, 109361578, 110976538, 112591497, 114206456, 115821415,
    117436374, 119051333, 120572658, 122093982, 123615306, 125136630, 126657954, 128179278, 129700603,
    131221927, 132743251, 134264575, 135157913, 136051250, 136944588, 137837925, 138731263, 139624600,
    140517938, 141411275, 142304613, 143197950, 143566098, 143934245, 144302393, 144670540, 145038688,
    145406835, 145774983, 146143130, 146511278, 146879425, 147268983, 147658540, 148048098, 148437655,
    148827213, 149216770, 149606328, 149995885, 150385443, 150775000, 151507093, 152239185, 152971278,
    153703370, 154435463, 155167555, 155899648, 156631740, 157363833, 158095925, 159105434, 160114943,
    161124453, 162133962, 163143471, 164152980, 165162489, 166171998, 167181508, 168191017, 169262342,
    170333667, 171404992, 172476317, 173547642, 174618967, 175690292, 176761617, 177832942, 178904267,
    179768972, 180633677, 181498382, 182363087, 183227792, 184092497, 184957202, 185821907, 186686612,
    187551317, 187759782, 187968247, 188176712, 188385177, 188593642, 188802107, 189010572, 189219037,
    189427502, 189635967, 189249621, 188863275, 188476929, 188090583, 187704238, 187317892, 186931546,
    186545200, 186158854, 185772508, 185344593, 184916678, 184488763, 184060848, 183632933, 183205018,
    182777103, 182349188, 181921273, 181493358, 181504526, 181515693, 181526861, 181538028, 181549196,
    181560363, 181571531, 181582698, 181593866, 181605033, 182165640, 182726247, 183286853, 183847460,
    184408067, 184968673, 185529280, 186089887, 186650493, 187211100, 188095342, 188979583, 189863825,
    190748067, 191632308, 192516550, 193400792, 194285033, 195169275, 196053517, 197397435, 198741353,
    200085272, 201429190, 202773108, 204117027, 205460945, 206804863, 208148782, 209492700, 188543430,
    167594160, 146644890, 125695620, 104746350, 83797080, 62847810, 41898540, 20949270, 0, 0, 0, 0, 0, 0, 0,
    0, 0, 0, 0, 0, 0, 0, 0, 0, 0, 0, 0, 0, 0, 0, 0, 0, 0, 0, 0, 0, 0, 0, 0, 0, 0, 0, 0, 0, 0, 0, 0, 0]
  len := by decide +kernel

/-- `Macbeth02` (hpp:6246-6292). -/
def Macbeth02 : Table where
  scale := 9
  m := [
    117132943, 119765069, 122397195, 125029320, 127661446, 130293572, 132925697, 135557823, 138189949,
    140822074, 143454200, 146561686, 149669172, 152776658, 155884143, 158991629, 162099115, 165206601,
    168314087, 171421573, 174529058, 176169633, 177810208, 179450783, 181091358, 182731933, 184372508,
    186013083, 187653658, 189294233, 190934808, 191401540, 191868272, 192335003, 192801735, 193268467,
    193735198, 194201930, 194668662, 195135393, 195602125, 195941709, 196281293, 196620878, 196960462,
    197300046, 197639630, 197979214, 198318798, 198658383, 198997967, 199521663, 200045360, 200569057,
    201092753, 201616450, 202140147, 202663843, 203187540, 203711237, 204234933, 205129930, 206024927,
    206919923, 207814920, 208709917, 209604913, 210499910, 211394907, 212289903, 213184900, 214708742,
    216232583, 217756425, 219280267, 220804108, 222327950, 223851792, 225375633, 226899475, 228423317,
    230708312, 232993307, 235278302, 237563297, 239848292, 242133287, 244418282, 246703277, 248988272,
    251273267, 254150625, 257027983, 259905342, 262782700, 265660058, 268537417, 271414775, 274292133,
    277169492, 280046850, 282920274, 285793698, 288667123, 291540547, 294413971, 297287395, 300160819,
    303034243, 305907668, 308781092, 310848142, 312915192, 314982242, 317049292, 319116342, 321183392,
    323250442, 325317492, 327384542, 329451592, 329842878, 330234163, 330625449, 331016735, 331408021,
    331799307, 332190593, 332581878, 332973164, 333364450, 331487665, 329610880, 327734095, 325857310,
    323980525, 322103740, 320226955, 318350170, 316473385, 314596600, 311764840, 308933080, 306101320,
    303269560, 300437800, 297606040, 294774280, 291942520, 289110760, 286279000, 284999998, 283720997,
    282441995, 281162993, 279883992, 278604990, 277325988, 276046987, 274767985, 273488983, 273785760,
    274082537, 274379313, 274676090, 274972867, 275269643, 275566420, 275863197, 276159973, 276456750,
    276531368, 276605987, 276680605, 276755223, 276829842, 276904460, 276979078, 277053697, 277128315,
    277202933, 278412386, 279621838, 280831291, 282040743, 283250196, 284459648, 285669101, 286878553,
    288088006, 289297458, 294305343, 299313227, 304321111, 309328995, 314336879, 319344763, 324352648,
    329360532, 334368416, 339376300, 347460277, 355544253, 363628230, 371712207, 379796183, 387880160,
    395964137, 404048113, 412132090, 420216067, 426973407, 433730747, 440488087, 447245427, 454002767,
    460760107, 467517447, 474274787, 481032127, 487789467, 491521339, 495253212, 498985084, 502716957,
    506448829, 510180702, 513912574, 517644447, 521376319, 525108192, 527171099, 529234007, 531296914,
    533359822, 535422729, 537485637, 539548544, 541611452, 543674359, 545737267, 547319515, 548901763,
    550484012, 552066260, 553648508, 555230757, 556813005, 558395253, 559977502, 561559750, 563192083,
    564824417, 566456750, 568089083, 569721417, 571353750, 572986083, 574618417, 576250750, 577883083,
    579591896, 581300708, 583009521, 584718333, 586427146, 588135958, 589844771, 591553583, 593262396,
    594971208, 596653813, 598336417, 600019021, 601701625, 603384229, 605066833, 606749438, 608432042,
    610114646, 611797250, 613092223, 614387195, 615682168, 616977140, 618272113, 619567085, 620862058,
    622157030, 623452003, 624746975, 626082417, 627417858, 628753300, 630088742, 631424183, 632759625,
    634095067, 635430508, 636765950, 638101392, 639887074, 641672757, 643458439, 645244122, 647029804,
    648815487, 650601169, 652386852, 654172534, 655958217, 658183960, 660409703, 662635447, 664861190,
    667086933, 669312677, 671538420, 673764163, 675989907, 678215650, 680352183, 682488717, 684625250,
    686761783, 688898317, 691034850, 693171383, 695307917, 697444450, 699580983, 701331758, 703082532,
    704833306, 706584080, 708334854, 710085628, 711836403, 713587177, 715337951, 717088725, 718762279,
    720435833, 722109388, 723782942, 725456496, 727130050, 728803604, 730477158, 732150713, 733824267,
    660441840, 587059413, 513676987, 440294560, 366912133, 293529707, 220147280, 146764853, 73382427, 0, 0,
    0, 0, 0, 0, 0, 0, 0, 0, 0, 0, 0, 0, 0, 0, 0, 0, 0, 0, 0, 0, 0, 0, 0, 0, 0, 0, 0, 0, 0, 0, 0, 0, 0, 0, 0,
    0, 0, 0]
  len := by decide +kernel

/-- `Macbeth03` (hpp:6294-6340). -/
def Macbeth03 : Table where
  scale := 9
  m := [
    130362525, 135033678, 139704830, 144375983, 149047135, 153718288, 158389440, 163060593, 167731745,
    172402898, 177074050, 184467636, 191861222, 199254808, 206648393, 214041979, 221435565, 228829151,
    236222737, 243616323, 251009908, 256533426, 262056943, 267580461, 273103978, 278627496, 284151013,
    289674531, 295198048, 300721566, 306245083, 308012125, 309779167, 311546208, 313313250, 315080292,
    316847333, 318614375, 320381417, 322148458, 323915500, 324517105, 325118710, 325720315, 326321920,
    326923525, 327525130, 328126735, 328728340, 329329945, 329931550, 330221306, 330511062, 330800818,
    331090573, 331380329, 331670085, 331959841, 332249597, 332539353, 332829108, 332643691, 332458273,
    332272856, 332087438, 331902021, 331716603, 331531186, 331345768, 331160351, 330974933, 330219834,
    329464735, 328709636, 327954537, 327199438, 326444338, 325689239, 324934140, 324179041, 323423942,
    322215453, 321006963, 319798474, 318589985, 317381496, 316173007, 314964518, 313756028, 312547539,
    311339050, 310027743, 308716437, 307405130, 306093823, 304782517, 303471210, 302159903, 300848597,
    299537290, 298225983, 296936445, 295646907, 294357368, 293067830, 291778292, 290488753, 289199215,
    287909677, 286620138, 285330600, 283740298, 282149995, 280559693, 278969390, 277379088, 275788785,
    274198483, 272608180, 271017878, 269427575, 267522250, 265616925, 263711600, 261806275, 259900950,
    257995625, 256090300, 254184975, 252279650, 250374325, 248481174, 246588023, 244694873, 242801722,
    240908571, 239015420, 237122269, 235229118, 233335968, 231442817, 229724124, 228005432, 226286739,
    224568047, 222849354, 221130662, 219411969, 217693277, 215974584, 214255892, 212772542, 211289192,
    209805842, 208322492, 206839142, 205355792, 203872442, 202389092, 200905742, 199422392, 197931317,
    196440242, 194949167, 193458092, 191967017, 190475942, 188984867, 187493792, 186002717, 184511642,
    182998908, 181486173, 179973439, 178460705, 176947971, 175435237, 173922503, 172409768, 170897034,
    169384300, 168174663, 166965025, 165755388, 164545750, 163336113, 162126475, 160916838, 159707200,
    158497563, 157287925, 156469936, 155651947, 154833958, 154015968, 153197979, 152379990, 151562001,
    150744012, 149926023, 149108033, 148679560, 148251087, 147822613, 147394140, 146965667, 146537193,
    146108720, 145680247, 145251773, 144823300, 144526793, 144230287, 143933780, 143637273, 143340767,
    143044260, 142747753, 142451247, 142154740, 141858233, 141729483, 141600733, 141471983, 141343233,
    141214483, 141085733, 140956983, 140828233, 140699483, 140570733, 140581125, 140591517, 140601908,
    140612300, 140622692, 140633083, 140643475, 140653867, 140664258, 140674650, 140716511, 140758372,
    140800233, 140842093, 140883954, 140925815, 140967676, 141009537, 141051398, 141093258, 141240748,
    141388238, 141535728, 141683218, 141830708, 141978198, 142125688, 142273178, 142420668, 142568158,
    142965302, 143362445, 143759588, 144156732, 144553875, 144951018, 145348162, 145745305, 146142448,
    146539592, 147069393, 147599195, 148128997, 148658798, 149188600, 149718402, 150248203, 150778005,
    151307807, 151837608, 152005322, 152173035, 152340748, 152508462, 152676175, 152843888, 153011602,
    153179315, 153347028, 153514742, 153172203, 152829663, 152487124, 152144585, 151802046, 151459507,
    151116968, 150774428, 150431889, 150089350, 149475664, 148861978, 148248293, 147634607, 147020921,
    146407235, 145793549, 145179863, 144566178, 143952492, 143196713, 142440933, 141685154, 140929375,
    140173596, 139417817, 138662038, 137906258, 137150479, 136394700, 135990375, 135586049, 135181724,
    134777398, 134373073, 133968747, 133564422, 133160096, 132755771, 132351445, 132612045, 132872644,
    133133244, 133393844, 133654443, 133915043, 134175643, 134436242, 134696842, 134957442, 136135052,
    137312662, 138490272, 139667882, 140845493, 142023103, 143200713, 144378323, 145555933, 146733543,
    132060189, 117386835, 102713480, 88040126, 73366772, 58693417, 44020063, 29346709, 14673354, 0, 0, 0, 0,
    0, 0, 0, 0, 0, 0, 0, 0, 0, 0, 0, 0, 0, 0, 0, 0, 0, 0, 0, 0, 0, 0, 0, 0, 0, 0, 0, 0, 0, 0, 0, 0, 0, 0, 0,
    0]
  len := by decide +kernel

/-- `Macbeth04` (hpp:6342-6388). -/
def Macbeth04 : Table where
  scale := 9
  m := [
    51239290, 51538762, 51838234, 52137706, 52437178, 52736650, 53036122, 53335594, 53635066, 53934538,
    54234010, 54409636, 54585261, 54760887, 54936512, 55112138, 55287763, 55463389, 55639014, 55814640,
    55990265, 56095125, 56199985, 56304845, 56409705, 56514565, 56619425, 56724285, 56829145, 56934005,
    57038865, 57121200, 57203536, 57285871, 57368206, 57450542, 57532877, 57615212, 57697548, 57779883,
    57862218, 57971040, 58079861, 58188682, 58297503, 58406324, 58515145, 58623967, 58732788, 58841609,
    58950430, 59085396, 59220361, 59355327, 59490292, 59625258, 59760223, 59895189, 60030154, 60165120,
    60300085, 60401482, 60502878, 60604275, 60705671, 60807068, 60908464, 61009861, 61111257, 61212654,
    61314050, 61410300, 61506550, 61602800, 61699050, 61795300, 61891550, 61987800, 62084050, 62180300,
    62276550, 62373402, 62470254, 62567106, 62663958, 62760810, 62857662, 62954514, 63051366, 63148218,
    63245070, 63398907, 63552743, 63706580, 63860416, 64014253, 64168089, 64321926, 64475762, 64629599,
    64783435, 65042848, 65302261, 65561674, 65821086, 66080499, 66339912, 66599325, 66858738, 67118151,
    67377563, 68171087, 68964611, 69758135, 70551659, 71345183, 72138707, 72932231, 73725755, 74519279,
    75312803, 77901374, 80489944, 83078515, 85667085, 88255656, 90844226, 93432797, 96021367, 98609938,
    101198508, 105614732, 110030955, 114447178, 118863402, 123279625, 127695848, 132112072, 136528295,
    140944518, 145360742, 148651089, 151941437, 155231784, 158522132, 161812479, 165102827, 168393174,
    171683522, 174973869, 178264217, 178832204, 179400192, 179968179, 180536167, 181104154, 181672142,
    182240129, 182808117, 183376104, 183944092, 182560788, 181177485, 179794182, 178410878, 177027575,
    175644272, 174260968, 172877665, 171494362, 170111058, 168038043, 165965027, 163892011, 161818995,
    159745979, 157672963, 155599948, 153526932, 151453916, 149380900, 147717223, 146053547, 144389870,
    142726193, 141062517, 139398840, 137735163, 136071487, 134407810, 132744133, 131655826, 130567518,
    129479211, 128390903, 127302596, 126214288, 125125981, 124037673, 122949366, 121861058, 121192263,
    120523468, 119854673, 119185878, 118517083, 117848288, 117179493, 116510698, 115841903, 115173108,
    114603934, 114034760, 113465586, 112896412, 112327238, 111758063, 111188889, 110619715, 110050541,
    109481367, 109069129, 108656892, 108244654, 107832417, 107420179, 107007942, 106595704, 106183467,
    105771229, 105358992, 105257307, 105155623, 105053938, 104952254, 104850569, 104748885, 104647200,
    104545516, 104443831, 104342147, 104506853, 104671559, 104836265, 105000971, 105165678, 105330384,
    105495090, 105659796, 105824502, 105989208, 106280923, 106572637, 106864351, 107156065, 107447779,
    107739493, 108031208, 108322922, 108614636, 108906350, 109205153, 109503956, 109802760, 110101563,
    110400366, 110699169, 110997972, 111296775, 111595579, 111894382, 112111166, 112327950, 112544735,
    112761519, 112978303, 113195088, 113411872, 113628656, 113845441, 114062225, 114051304, 114040383,
    114029463, 114018542, 114007621, 113996700, 113985779, 113974858, 113963938, 113953017, 113797518,
    113642020, 113486522, 113331023, 113175525, 113020027, 112864528, 112709030, 112553532, 112398033,
    112373548, 112349063, 112324578, 112300093, 112275608, 112251123, 112226638, 112202153, 112177668,
    112153183, 112419765, 112686347, 112952928, 113219510, 113486092, 113752673, 114019255, 114285837,
    114552418, 114819000, 115313643, 115808285, 116302928, 116797570, 117292213, 117786855, 118281498,
    118776140, 119270783, 119765425, 120248358, 120731292, 121214225, 121697158, 122180092, 122663025,
    123145958, 123628892, 124111825, 124594758, 125165738, 125736717, 126307696, 126878675, 127449654,
    128020633, 128591613, 129162592, 129733571, 130304550, 117274095, 104243640, 91213185, 78182730,
    65152275, 52121820, 39091365, 26060910, 13030455, 0, 0, 0, 0, 0, 0, 0, 0, 0, 0, 0, 0, 0, 0, 0, 0, 0, 0,
    0, 0, 0, 0, 0, 0, 0, 0, 0, 0, 0, 0, 0, 0, 0, 0, 0, 0, 0, 0, 0, 0]
  len := by decide +kernel

/-- `Macbeth05` (hpp:6390-6436). -/
def Macbeth05 : Table where
  scale := 9
  m := [
    144234675, 149638121, 155041567, 160445013, 165848458, 171251904, 176655350, 182058796, 187462242,
    192865688, 198269133, 207885608, 217502082, 227118556, 236735030, 246351504, 255967978, 265584453,
    275200927, 284817401, 294433875, 302534240, 310634605, 318734970, 326835335, 334935700, 343036065,
    351136430, 359236795, 367337160, 375437525, 378731121, 382024717, 385318313, 388611908, 391905504,
    395199100, 398492696, 401786292, 405079888, 408373483, 409631083, 410888683, 412146283, 413403883,
    414661483, 415919083, 417176683, 418434283, 419691883, 420949483, 421472757, 421996030, 422519303,
    423042577, 423565850, 424089123, 424612397, 425135670, 425658943, 426182217, 426172657, 426163097,
    426153537, 426143977, 426134417, 426124857, 426115297, 426105737, 426096177, 426086617, 425410258,
    424733898, 424057539, 423381180, 422704821, 422028462, 421352103, 420675743, 419999384, 419323025,
    417734222, 416145418, 414556615, 412967812, 411379008, 409790205, 408201402, 406612598, 405023795,
    403434992, 401018862, 398602732, 396186602, 393770472, 391354342, 388938212, 386522082, 384105952,
    381689822, 379273692, 375982226, 372690760, 369399294, 366107828, 362816363, 359524897, 356233431,
    352941965, 349650499, 346359033, 342835295, 339311557, 335787818, 332264080, 328740342, 325216603,
    321692865, 318169127, 314645388, 311121650, 308132998, 305144345, 302155693, 299167040, 296178388,
    293189735, 290201083, 287212430, 284223778, 281235125, 278499214, 275763303, 273027393, 270291482,
    267555571, 264819660, 262083749, 259347838, 256611928, 253876017, 251377398, 248878778, 246380159,
    243881540, 241382921, 238884302, 236385683, 233887063, 231388444, 228889825, 227421307, 225952788,
    224484270, 223015752, 221547233, 220078715, 218610197, 217141678, 215673160, 214204642, 213619655,
    213034668, 212449682, 211864695, 211279708, 210694722, 210109735, 209524748, 208939762, 208354775,
    207681531, 207008287, 206335043, 205661798, 204988554, 204315310, 203642066, 202968822, 202295578,
    201622333, 200899730, 200177127, 199454523, 198731920, 198009317, 197286713, 196564110, 195841507,
    195118903, 194396300, 194213338, 194030375, 193847413, 193664450, 193481488, 193298525, 193115563,
    192932600, 192749638, 192566675, 193328157, 194089638, 194851120, 195612602, 196374083, 197135565,
    197897047, 198658528, 199420010, 200181492, 201604331, 203027170, 204450009, 205872848, 207295688,
    208718527, 210141366, 211564205, 212987044, 214409883, 215920689, 217431495, 218942301, 220453107,
    221963913, 223474718, 224985524, 226496330, 228007136, 229517942, 230623808, 231729675, 232835542,
    233941408, 235047275, 236153142, 237259008, 238364875, 239470742, 240576608, 241915044, 243253480,
    244591916, 245930352, 247268788, 248607223, 249945659, 251284095, 252622531, 253960967, 256415994,
    258871022, 261326049, 263781077, 266236104, 268691132, 271146159, 273601187, 276056214, 278511242,
    281982214, 285453187, 288924159, 292395132, 295866104, 299337077, 302808049, 306279022, 309749994,
    313220967, 316678026, 320135085, 323592144, 327049203, 330506263, 333963322, 337420381, 340877440,
    344334499, 347791558, 349599475, 351407392, 353215308, 355023225, 356831142, 358639058, 360446975,
    362254892, 364062808, 365870725, 365862780, 365854835, 365846890, 365838945, 365831000, 365823055,
    365815110, 365807165, 365799220, 365791275, 365154560, 364517845, 363881130, 363244415, 362607700,
    361970985, 361334270, 360697555, 360060840, 359424125, 359281038, 359137950, 358994863, 358851775,
    358708688, 358565600, 358422513, 358279425, 358136338, 357993250, 358686610, 359379970, 360073330,
    360766690, 361460050, 362153410, 362846770, 363540130, 364233490, 364926850, 366156758, 367386667,
    368616575, 369846483, 371076392, 372306300, 373536208, 374766117, 375996025, 377225933, 379285967,
    381346000, 383406033, 385466067, 387526100, 389586133, 391646167, 393706200, 395766233, 397826267,
    358043640, 318261013, 278478387, 238695760, 198913133, 159130507, 119347880, 79565253, 39782627, 0, 0,
    0, 0, 0, 0, 0, 0, 0, 0, 0, 0, 0, 0, 0, 0, 0, 0, 0, 0, 0, 0, 0, 0, 0, 0, 0, 0, 0, 0, 0, 0, 0, 0, 0, 0, 0,
    0, 0, 0]
  len := by decide +kernel

/-- `Macbeth06` (hpp:6438-6484). -/
def Macbeth06 : Table where
  scale := 9
  m := [
    136268951, 140587868, 144906785, 149225702, 153544619, 157863536, 162182452, 166501369, 170820286,
    175139203, 179458120, 186201515, 192944910, 199688305, 206431700, 213175095, 219918490, 226661885,
    233405280, 240148675, 246892070, 251884762, 256877454, 261870146, 266862839, 271855531, 276848223,
    281840915, 286833607, 291826299, 296818991, 299165242, 301511493, 303857744, 306203995, 308550246,
    310896496, 313242747, 315588998, 317935249, 320281500, 321961795, 323642089, 325322384, 327002679,
    328682974, 330363268, 332043563, 333723858, 335404153, 337084447, 338925824, 340767200, 342608576,
    344449953, 346291329, 348132705, 349974082, 351815458, 353656834, 355498211, 358067014, 360635818,
    363204621, 365773425, 368342228, 370911032, 373479835, 376048639, 378617442, 381186246, 384980250,
    388774254, 392568259, 396362263, 400156268, 403950272, 407744276, 411538281, 415332285, 419126289,
    423809552, 428492814, 433176076, 437859339, 442542601, 447225863, 451909125, 456592388, 461275650,
    465958912, 470411019, 474863126, 479315233, 483767340, 488219447, 492671554, 497123661, 501575768,
    506027875, 510479982, 514012641, 517545300, 521077959, 524610618, 528143276, 531675935, 535208594,
    538741253, 542273911, 545806570, 547945156, 550083742, 552222328, 554360914, 556499500, 558638086,
    560776672, 562915258, 565053844, 567192430, 567899658, 568606886, 569314114, 570021342, 570728570,
    571435798, 572143026, 572850254, 573557482, 574264711, 573746582, 573228454, 572710326, 572192198,
    571674070, 571155942, 570637814, 570119686, 569601558, 569083430, 567243478, 565403526, 563563575,
    561723623, 559883671, 558043719, 556203768, 554363816, 552523864, 550683912, 547966075, 545248237,
    542530399, 539812561, 537094724, 534376886, 531659048, 528941211, 526223373, 523505535, 519998335,
    516491135, 512983935, 509476735, 505969535, 502462335, 498955135, 495447935, 491940735, 488433535,
    484111290, 479789046, 475466801, 471144556, 466822311, 462500067, 458177822, 453855577, 449533332,
    445211088, 440677259, 436143430, 431609601, 427075772, 422541943, 418008114, 413474285, 408940456,
    404406627, 399872798, 394928727, 389984656, 385040585, 380096514, 375152443, 370208372, 365264301,
    360320230, 355376159, 350432088, 345327729, 340223370, 335119011, 330014653, 324910294, 319805935,
    314701576, 309597218, 304492859, 299388500, 294693059, 289997618, 285302176, 280606735, 275911294,
    271215853, 266520411, 261824970, 257129529, 252434088, 249286877, 246139667, 242992456, 239845246,
    236698035, 233550825, 230403614, 227256404, 224109193, 220961982, 219297194, 217632405, 215967617,
    214302828, 212638039, 210973251, 209308462, 207643674, 205978885, 204314096, 203461940, 202609784,
    201757628, 200905472, 200053316, 199201160, 198349004, 197496847, 196644691, 195792535, 195300989,
    194809442, 194317896, 193826349, 193334803, 192843256, 192351710, 191860163, 191368617, 190877070,
    190612275, 190347479, 190082683, 189817888, 189553092, 189288296, 189023501, 188758705, 188493910,
    188229114, 188478167, 188727219, 188976272, 189225325, 189474377, 189723430, 189972482, 190221535,
    190470588, 190719640, 191589889, 192460137, 193330385, 194200633, 195070882, 195941130, 196811378,
    197681626, 198551875, 199422123, 200638499, 201854875, 203071252, 204287628, 205504004, 206720381,
    207936757, 209153133, 210369510, 211585886, 212737445, 213889004, 215040562, 216192121, 217343680,
    218495239, 219646797, 220798356, 221949915, 223101474, 223955268, 224809061, 225662855, 226516649,
    227370443, 228224237, 229078031, 229931825, 230785618, 231639412, 231807176, 231974940, 232142705,
    232310469, 232478233, 232645997, 232813761, 232981525, 233149289, 233317053, 232926626, 232536198,
    232145771, 231755343, 231364916, 230974488, 230584060, 230193633, 229803205, 229412778, 229406829,
    229400880, 229394931, 229388982, 229383033, 229377084, 229371136, 229365187, 229359238, 229353289,
    206417960, 183482631, 160547302, 137611973, 114676644, 91741316, 68805987, 45870658, 22935329, 0, 0, 0,
    0, 0, 0, 0, 0, 0, 0, 0, 0, 0, 0, 0, 0, 0, 0, 0, 0, 0, 0, 0, 0, 0, 0, 0, 0, 0, 0, 0, 0, 0, 0, 0, 0, 0, 0,
    0, 0]
  len := by decide +kernel

/-- `Macbeth11` (hpp:6486-6532). -/
def Macbeth11 : Table where
  scale := 9
  m := [
    53807993, 53796048, 53784102, 53772156, 53760211, 53748265, 53736319, 53724374, 53712428, 53700482,
    53688537, 53645508, 53602479, 53559451, 53516422, 53473393, 53430365, 53387336, 53344307, 53301279,
    53258250, 53302142, 53346034, 53389926, 53433817, 53477709, 53521601, 53565493, 53609385, 53653277,
    53697168, 53729406, 53761644, 53793882, 53826120, 53858358, 53890596, 53922834, 53955072, 53987310,
    54019548, 54069433, 54119318, 54169203, 54219088, 54268973, 54318858, 54368743, 54418628, 54468513,
    54518398, 54561244, 54604090, 54646936, 54689782, 54732628, 54775473, 54818319, 54861165, 54904011,
    54946857, 54967891, 54988926, 55009961, 55030995, 55052030, 55073065, 55094099, 55115134, 55136169,
    55157203, 55209092, 55260980, 55312868, 55364756, 55416644, 55468532, 55520421, 55572309, 55624197,
    55676085, 55772300, 55868515, 55964731, 56060946, 56157161, 56253376, 56349591, 56445806, 56542022,
    56638237, 56814154, 56990071, 57165988, 57341905, 57517822, 57693739, 57869656, 58045573, 58221490,
    58397407, 58679266, 58961125, 59242984, 59524843, 59806703, 60088562, 60370421, 60652280, 60934139,
    61215998, 61916158, 62616317, 63316477, 64016636, 64716796, 65416955, 66117115, 66817274, 67517434,
    68217593, 70337773, 72457953, 74578133, 76698313, 78818493, 80938673, 83058853, 85179033, 87299213,
    89419393, 92938903, 96458412, 99977921, 103497430, 107016939, 110536448, 114055958, 117575467,
    121094976, 124614485, 127503340, 130392195, 133281050, 136169904, 139058759, 141947614, 144836469,
    147725324, 150614179, 153503033, 155532077, 157561120, 159590163, 161619207, 163648250, 165677293,
    167706337, 169735380, 171764423, 173793467, 176358407, 178923347, 181488287, 184053227, 186618167,
    189183107, 191748047, 194312987, 196877927, 199442867, 204325613, 209208360, 214091107, 218973853,
    223856600, 228739347, 233622093, 238504840, 243387587, 248270333, 256985634, 265700935, 274416236,
    283131537, 291846838, 300562138, 309277439, 317992740, 326708041, 335423342, 346280380, 357137418,
    367994457, 378851495, 389708533, 400565572, 411422610, 422279648, 433136687, 443993725, 453441677,
    462889628, 472337580, 481785532, 491233483, 500681435, 510129387, 519577338, 529025290, 538473242,
    543293256, 548113270, 552933284, 557753298, 562573313, 567393327, 572213341, 577033355, 581853369,
    586673383, 587489945, 588306507, 589123068, 589939630, 590756192, 591572753, 592389315, 593205877,
    594022438, 594839000, 594414013, 593989027, 593564040, 593139053, 592714067, 592289080, 591864093,
    591439107, 591014120, 590589133, 590191936, 589794738, 589397541, 589000343, 588603146, 588205948,
    587808751, 587411553, 587014356, 586617158, 586372875, 586128592, 585884308, 585640025, 585395742,
    585151458, 584907175, 584662892, 584418608, 584174325, 584142693, 584111060, 584079428, 584047795,
    584016163, 583984530, 583952898, 583921265, 583889633, 583858000, 584446924, 585035848, 585624773,
    586213697, 586802621, 587391545, 587980469, 588569393, 589158318, 589747242, 591023664, 592300087,
    593576509, 594852932, 596129354, 597405777, 598682199, 599958622, 601235044, 602511467, 604299346,
    606087225, 607875104, 609662983, 611450863, 613238742, 615026621, 616814500, 618602379, 620390258,
    622230919, 624071580, 625912241, 627752902, 629593563, 631434223, 633274884, 635115545, 636956206,
    638796867, 640398172, 641999477, 643600782, 645202087, 646803392, 648404697, 650006002, 651607307,
    653208612, 654809917, 655583534, 656357152, 657130769, 657904387, 658678004, 659451622, 660225239,
    660998857, 661772474, 662546092, 662546326, 662546560, 662546794, 662547028, 662547263, 662547497,
    662547731, 662547965, 662548199, 662548433, 662975086, 663401738, 663828391, 664255043, 664681696,
    665108348, 665535001, 665961653, 666388306, 666814958, 600133463, 533451967, 466770471, 400088975,
    333407479, 266725983, 200044488, 133362992, 66681496, 0, 0, 0, 0, 0, 0, 0, 0, 0, 0, 0, 0, 0, 0, 0, 0, 0,
    0, 0, 0, 0, 0, 0, 0, 0, 0, 0, 0, 0, 0, 0, 0, 0, 0, 0, 0, 0, 0, 0, 0]
  len := by decide +kernel

/-- `Macbeth12` (hpp:6534-6580). -/
def Macbeth12 : Table where
  scale := 9
  m := [
    122364925, 126576671, 130788417, 135000163, 139211908, 143423654, 147635400, 151847146, 156058892,
    160270638, 164482383, 170884575, 177286767, 183688958, 190091150, 196493342, 202895533, 209297725,
    215699917, 222102108, 228504300, 234261801, 240019302, 245776803, 251534303, 257291804, 263049305,
    268806806, 274564307, 280321808, 286079308, 290201841, 294324373, 298446906, 302569438, 306691971,
    310814503, 314937036, 319059568, 323182101, 327304633, 330682438, 334060242, 337438046, 340815850,
    344193654, 347571458, 350949263, 354327067, 357704871, 361082675, 363731076, 366379477, 369027878,
    371676278, 374324679, 376973080, 379621481, 382269882, 384918283, 387566683, 388773437, 389980190,
    391186943, 392393697, 393600450, 394807203, 396013957, 397220710, 398427463, 399634217, 398827703,
    398021188, 397214674, 396408160, 395601646, 394795132, 393988618, 393182103, 392375589, 391569075,
    388654937, 385740798, 382826660, 379912522, 376998383, 374084245, 371170107, 368255968, 365341830,
    362427692, 357796759, 353165827, 348534894, 343903962, 339273029, 334642097, 330011164, 325380232,
    320749299, 316118367, 310530894, 304943422, 299355949, 293768477, 288181004, 282593532, 277006059,
    271418587, 265831114, 260243642, 255077422, 249911202, 244744982, 239578762, 234412542, 229246322,
    224080102, 218913882, 213747662, 208581442, 204554178, 200526913, 196499649, 192472385, 188445121,
    184417857, 180390593, 176363328, 172336064, 168308800, 165246354, 162183908, 159121463, 156059017,
    152996571, 149934125, 146871679, 143809233, 140746788, 137684342, 135571868, 133459393, 131346919,
    129234445, 127121971, 125009497, 122897023, 120784548, 118672074, 116559600, 115328577, 114097553,
    112866530, 111635507, 110404483, 109173460, 107942437, 106711413, 105480390, 104249367, 103460951,
    102672535, 101884120, 101095704, 100307288, 99518873, 98730457, 97942041, 97153626, 96365210, 95708316,
    95051423, 94394529, 93737635, 93080742, 92423848, 91766954, 91110061, 90453167, 89796273, 89367390,
    88938507, 88509623, 88080740, 87651857, 87222973, 86794090, 86365207, 85936323, 85507440, 85329032,
    85150623, 84972215, 84793807, 84615398, 84436990, 84258582, 84080173, 83901765, 83723357, 83747411,
    83771464, 83795518, 83819572, 83843626, 83867680, 83891734, 83915787, 83939841, 83963895, 83999012,
    84034128, 84069245, 84104362, 84139478, 84174595, 84209712, 84244828, 84279945, 84315062, 84294631,
    84274199, 84253768, 84233337, 84212906, 84192475, 84172044, 84151612, 84131181, 84110750, 84085745,
    84060740, 84035736, 84010731, 83985726, 83960721, 83935716, 83910711, 83885707, 83860702, 83991644,
    84122585, 84253527, 84384469, 84515411, 84646353, 84777295, 84908236, 85039178, 85170120, 85629799,
    86089477, 86549156, 87008834, 87468513, 87928191, 88387870, 88847548, 89307227, 89766905, 90575043,
    91383181, 92191319, 92999456, 93807594, 94615732, 95423870, 96232008, 97040146, 97848283, 98975833,
    100103383, 101230933, 102358483, 103486033, 104613583, 105741133, 106868683, 107996233, 109123783,
    110557826, 111991868, 113425911, 114859953, 116293996, 117728038, 119162081, 120596123, 122030166,
    123464208, 125387027, 127309845, 129232663, 131155482, 133078300, 135001118, 136923937, 138846755,
    140769573, 142692392, 145353644, 148014897, 150676149, 153337402, 155998654, 158659907, 161321159,
    163982412, 166643664, 169304917, 172839598, 176374278, 179908959, 183443640, 186978321, 190513002,
    194047683, 197582363, 201117044, 204651725, 208581847, 212511968, 216442090, 220372212, 224302333,
    228232455, 232162577, 236092698, 240022820, 243952942, 248276378, 252599813, 256923249, 261246685,
    265570121, 269893557, 274216993, 278540428, 282863864, 287187300, 291717082, 296246863, 300776645,
    305306427, 309836208, 314365990, 318895772, 323425553, 327955335, 332485117, 299236605, 265988093,
    232739582, 199491070, 166242558, 132994047, 99745535, 66497023, 33248512, 0, 0, 0, 0, 0, 0, 0, 0, 0, 0,
    0, 0, 0, 0, 0, 0, 0, 0, 0, 0, 0, 0, 0, 0, 0, 0, 0, 0, 0, 0, 0, 0, 0, 0, 0, 0, 0, 0, 0, 0]
  len := by decide +kernel

/-- `Macbeth13` (hpp:6582-6628). -/
def Macbeth13 : Table where
  scale := 9
  m := [
    96004948, 97870687, 99736425, 101602164, 103467902, 105333641, 107199379, 109065118, 110930856,
    112796595, 114662333, 116254343, 117846353, 119438363, 121030373, 122622383, 124214393, 125806403,
    127398413, 128990423, 130582433, 131032368, 131482303, 131932238, 132382173, 132832108, 133282043,
    133731978, 134181913, 134631848, 135081783, 134918414, 134755045, 134591676, 134428307, 134264938,
    134101568, 133938199, 133774830, 133611461, 133448092, 133262460, 133076828, 132891197, 132705565,
    132519933, 132334302, 132148670, 131963038, 131777407, 131591775, 131453653, 131315530, 131177408,
    131039285, 130901163, 130763040, 130624918, 130486795, 130348673, 130210550, 130000184, 129789818,
    129579453, 129369087, 129158721, 128948355, 128737989, 128527623, 128317258, 128106892, 127801283,
    127495673, 127190064, 126884455, 126578846, 126273237, 125967628, 125662018, 125356409, 125050800,
    124593303, 124135807, 123678310, 123220813, 122763317, 122305820, 121848323, 121390827, 120933330,
    120475833, 119940628, 119405423, 118870218, 118335013, 117799808, 117264603, 116729398, 116194193,
    115658988, 115123783, 114596220, 114068657, 113541093, 113013530, 112485967, 111958403, 111430840,
    110903277, 110375713, 109848150, 109357321, 108866492, 108375663, 107884833, 107394004, 106903175,
    106412346, 105921517, 105430688, 104939858, 104427923, 103915987, 103404051, 102892116, 102380180,
    101868244, 101356309, 100844373, 100332437, 99820502, 99354759, 98889016, 98423273, 97957530, 97491787,
    97026044, 96560301, 96094558, 95628815, 95163072, 94912235, 94661398, 94410561, 94159724, 93908888,
    93658051, 93407214, 93156377, 92905540, 92654703, 92635960, 92617217, 92598474, 92579731, 92560988,
    92542244, 92523501, 92504758, 92486015, 92467272, 92539468, 92611665, 92683862, 92756058, 92828255,
    92900452, 92972648, 93044845, 93117042, 93189238, 93490886, 93792533, 94094181, 94395828, 94697476,
    94999123, 95300771, 95602418, 95904066, 96205713, 97396776, 98587839, 99778902, 100969965, 102161028,
    103352090, 104543153, 105734216, 106925279, 108116342, 112861428, 117606515, 122351602, 127096688,
    131841775, 136586862, 141331948, 146077035, 150822122, 155567208, 166549495, 177531782, 188514068,
    199496355, 210478642, 221460928, 232443215, 243425502, 254407788, 265390075, 278722221, 292054367,
    305386513, 318718658, 332050804, 345382950, 358715096, 372047242, 385379388, 398711533, 408848528,
    418985522, 429122516, 439259510, 449396504, 459533498, 469670493, 479807487, 489944481, 500081475,
    505705238, 511329000, 516952763, 522576525, 528200288, 533824050, 539447813, 545071575, 550695338,
    556319100, 558632255, 560945410, 563258565, 565571720, 567884875, 570198030, 572511185, 574824340,
    577137495, 579450650, 580278085, 581105520, 581932955, 582760390, 583587825, 584415260, 585242695,
    586070130, 586897565, 587725000, 588015169, 588305338, 588595508, 588885677, 589175846, 589466015,
    589756184, 590046353, 590336523, 590626692, 590815022, 591003352, 591191682, 591380012, 591568342,
    591756672, 591945002, 592133332, 592321662, 592509992, 592704069, 592898147, 593092224, 593286302,
    593480379, 593674457, 593868534, 594062612, 594256689, 594450767, 594790606, 595130445, 595470284,
    595810123, 596149963, 596489802, 596829641, 597169480, 597509319, 597849158, 598283257, 598717355,
    599151453, 599585552, 600019650, 600453748, 600887847, 601321945, 601756043, 602190142, 602661484,
    603132827, 603604169, 604075512, 604546854, 605018197, 605489539, 605960882, 606432224, 606903567,
    607138388, 607373208, 607608029, 607842850, 608077671, 608312492, 608547313, 608782133, 609016954,
    609251775, 609222884, 609193993, 609165103, 609136212, 609107321, 609078430, 609049539, 609020648,
    608991758, 608962867, 609090122, 609217377, 609344632, 609471887, 609599142, 609726397, 609853652,
    609980907, 610108162, 610235417, 549211875, 488188333, 427164792, 366141250, 305117708, 244094167,
    183070625, 122047083, 61023542, 0, 0, 0, 0, 0, 0, 0, 0, 0, 0, 0, 0, 0, 0, 0, 0, 0, 0, 0, 0, 0, 0, 0, 0,
    0, 0, 0, 0, 0, 0, 0, 0, 0, 0, 0, 0, 0, 0, 0, 0]
  len := by decide +kernel

/-- `Macbeth14` (hpp:6629-6675). -/
def Macbeth14 : Table where
  scale := 9
  m := [
    91993695, 94395723, 96797751, 99199779, 101601807, 104003835, 106405863, 108807891, 111209919,
    113611947, 116013975, 118973427, 121932878, 124892330, 127851782, 130811233, 133770685, 136730137,
    139689588, 142649040, 145608492, 147901087, 150193682, 152486277, 154778872, 157071467, 159364062,
    161656657, 163949252, 166241847, 168534442, 169527616, 170520790, 171513964, 172507138, 173500313,
    174493487, 175486661, 176479835, 177473009, 178466183, 177920935, 177375687, 176830438, 176285190,
    175739942, 175194693, 174649445, 174104197, 173558948, 173013700, 171508923, 170004147, 168499370,
    166994593, 165489817, 163985040, 162480263, 160975487, 159470710, 157965933, 156047798, 154129663,
    152211528, 150293393, 148375258, 146457123, 144538988, 142620853, 140702718, 138784583, 136819271,
    134853958, 132888646, 130923333, 128958021, 126992708, 125027396, 123062083, 121096771, 119131458,
    117357856, 115584253, 113810651, 112037048, 110263446, 108489843, 106716241, 104942638, 103169036,
    101395433, 99950526, 98505619, 97060712, 95615805, 94170898, 92725990, 91281083, 89836176, 88391269,
    86946362, 85769857, 84593351, 83416846, 82240341, 81063836, 79887331, 78710826, 77534320, 76357815,
    75181310, 74272676, 73364041, 72455407, 71546773, 70638138, 69729504, 68820870, 67912235, 67003601,
    66094967, 65517321, 64939675, 64362029, 63784383, 63206737, 62629091, 62051445, 61473799, 60896153,
    60318507, 59932656, 59546804, 59160953, 58775102, 58389251, 58003400, 57617549, 57231697, 56845846,
    56459995, 56125823, 55791651, 55457480, 55123308, 54789136, 54454964, 54120792, 53786620, 53452449,
    53118277, 52927354, 52736432, 52545510, 52354587, 52163665, 51972743, 51781820, 51590898, 51399976,
    51209053, 51212240, 51215426, 51218612, 51221798, 51224984, 51228170, 51231357, 51234543, 51237729,
    51240915, 51311842, 51382769, 51453697, 51524624, 51595551, 51666478, 51737405, 51808332, 51879260,
    51950187, 51942420, 51934653, 51926886, 51919119, 51911352, 51903585, 51895818, 51888051, 51880284,
    51872517, 51805078, 51737639, 51670201, 51602762, 51535323, 51467885, 51400446, 51333007, 51265569,
    51198130, 51320318, 51442506, 51564695, 51686883, 51809071, 51931259, 52053447, 52175635, 52297824,
    52420012, 53019264, 53618516, 54217768, 54817020, 55416273, 56015525, 56614777, 57214029, 57813281,
    58412533, 59889200, 61365867, 62842534, 64319201, 65795868, 67272535, 68749202, 70225869, 71702536,
    73179203, 75412842, 77646481, 79880120, 82113759, 84347398, 86581037, 88814676, 91048315, 93281954,
    95515593, 97856567, 100197541, 102538515, 104879489, 107220463, 109561437, 111902411, 114243385,
    116584359, 118925333, 121172248, 123419163, 125666078, 127912993, 130159908, 132406823, 134653738,
    136900653, 139147568, 141394483, 143809122, 146223760, 148638398, 151053037, 153467675, 155882313,
    158296952, 160711590, 163126228, 165540867, 168391362, 171241857, 174092352, 176942847, 179793342,
    182643837, 185494332, 188344827, 191195322, 194045817, 197347446, 200649075, 203950704, 207252333,
    210553963, 213855592, 217157221, 220458850, 223760479, 227062108, 230895335, 234728562, 238561788,
    242395015, 246228242, 250061468, 253894695, 257727922, 261561148, 265394375, 269747375, 274100375,
    278453375, 282806375, 287159375, 291512375, 295865375, 300218375, 304571375, 308924375, 313487192,
    318050008, 322612825, 327175642, 331738458, 336301275, 340864092, 345426908, 349989725, 354552542,
    358673831, 362795120, 366916409, 371037698, 375158988, 379280277, 383401566, 387522855, 391644144,
    395765433, 399772599, 403779765, 407786931, 411794097, 415801263, 419808428, 423815594, 427822760,
    431829926, 435837092, 440100286, 444363480, 448626674, 452889868, 457153063, 461416257, 465679451,
    469942645, 474205839, 478469033, 430622130, 382775227, 334928323, 287081420, 239234517, 191387613,
    143540710, 95693807, 47846903, 0, 0, 0, 0, 0, 0, 0, 0, 0, 0, 0, 0, 0, 0, 0, 0, 0, 0, 0, 0, 0, 0, 0, 0,
    0, 0, 0, 0, 0, 0, 0, 0, 0, 0, 0, 0, 0, 0, 0, 0]
  len := by decide +kernel

/-- `Macbeth15` (hpp:6677-6723). -/
def Macbeth15 : Table where
  scale := 9
  m := [
    61031217, 61052864, 61074512, 61096159, 61117807, 61139454, 61161102, 61182749, 61204397, 61226044,
    61247692, 61315304, 61382916, 61450528, 61518140, 61585752, 61653364, 61720976, 61788588, 61856200,
    61923812, 62022906, 62122000, 62221094, 62320188, 62419282, 62518376, 62617470, 62716564, 62815658,
    62914752, 63020304, 63125856, 63231408, 63336960, 63442512, 63548064, 63653616, 63759168, 63864720,
    63970272, 64166072, 64361873, 64557674, 64753474, 64949275, 65145076, 65340876, 65536677, 65732478,
    65928278, 66256456, 66584634, 66912811, 67240989, 67569167, 67897344, 68225522, 68553700, 68881877,
    69210055, 69761582, 70313110, 70864637, 71416164, 71967692, 72519219, 73070746, 73622274, 74173801,
    74725328, 75801767, 76878206, 77954645, 79031084, 80107523, 81183961, 82260400, 83336839, 84413278,
    85489717, 87446972, 89404227, 91361482, 93318737, 95275992, 97233247, 99190502, 101147757, 103105012,
    105062267, 108422853, 111783438, 115144024, 118504610, 121865196, 125225782, 128586368, 131946953,
    135307539, 138668125, 144010023, 149351920, 154693818, 160035715, 165377613, 170719510, 176061408,
    181403305, 186745203, 192087100, 199951233, 207815367, 215679500, 223543633, 231407767, 239271900,
    247136033, 255000167, 262864300, 270728433, 281266263, 291804092, 302341921, 312879750, 323417579,
    333955408, 344493238, 355031067, 365568896, 376106725, 386073688, 396040650, 406007613, 415974575,
    425941538, 435908500, 445875463, 455842425, 465809388, 475776350, 481321102, 486865853, 492410605,
    497955357, 503500108, 509044860, 514589612, 520134363, 525679115, 531223867, 533017229, 534810592,
    536603954, 538397317, 540190679, 541984042, 543777404, 545570767, 547364129, 549157492, 548813237,
    548468982, 548124727, 547780472, 547436217, 547091962, 546747707, 546403452, 546059197, 545714942,
    543950689, 542186437, 540422184, 538657932, 536893679, 535129427, 533365174, 531600922, 529836669,
    528072417, 525710778, 523349138, 520987499, 518625860, 516264221, 513902582, 511540943, 509179303,
    506817664, 504456025, 501062431, 497668837, 494275243, 490881648, 487488054, 484094460, 480700866,
    477307272, 473913678, 470520083, 466231866, 461943648, 457655431, 453367213, 449078996, 444790778,
    440502561, 436214343, 431926126, 427637908, 422998625, 418359342, 413720058, 409080775, 404441492,
    399802208, 395162925, 390523642, 385884358, 381245075, 377800438, 374355802, 370911165, 367466528,
    364021892, 360577255, 357132618, 353687982, 350243345, 346798708, 344863173, 342927637, 340992101,
    339056565, 337121029, 335185493, 333249958, 331314422, 329378886, 327443350, 326469735, 325496120,
    324522505, 323548890, 322575275, 321601660, 320628045, 319654430, 318680815, 317707200, 317183179,
    316659158, 316135138, 315611117, 315087096, 314563075, 314039054, 313515033, 312991013, 312466992,
    312213849, 311960707, 311707564, 311454422, 311201279, 310948137, 310694994, 310441852, 310188709,
    309935567, 310383080, 310830593, 311278107, 311725620, 312173133, 312620647, 313068160, 313515673,
    313963187, 314410700, 315710298, 317009897, 318309495, 319609093, 320908692, 322208290, 323507888,
    324807487, 326107085, 327406683, 329188613, 330970543, 332752473, 334534403, 336316333, 338098263,
    339880193, 341662123, 343444053, 345225983, 346958421, 348690858, 350423296, 352155733, 353888171,
    355620608, 357353046, 359085483, 360817921, 362550358, 363916925, 365283492, 366650058, 368016625,
    369383192, 370749758, 372116325, 373482892, 374849458, 376216025, 376648712, 377081398, 377514085,
    377946772, 378379458, 378812145, 379244832, 379677518, 380110205, 380542892, 380256029, 379969167,
    379682304, 379395442, 379108579, 378821717, 378534854, 378247992, 377961129, 377674267, 377847467,
    378020667, 378193867, 378367067, 378540267, 378713467, 378886667, 379059867, 379233067, 379406267,
    341465640, 303525013, 265584387, 227643760, 189703133, 151762507, 113821880, 75881253, 37940627, 0, 0,
    0, 0, 0, 0, 0, 0, 0, 0, 0, 0, 0, 0, 0, 0, 0, 0, 0, 0, 0, 0, 0, 0, 0, 0, 0, 0, 0, 0, 0, 0, 0, 0, 0, 0, 0,
    0, 0, 0]
  len := by decide +kernel

/-- `Macbeth16` (hpp:6725-6771). -/
def Macbeth16 : Table where
  scale := 9
  m := [
    62817450, 62819804, 62822157, 62824511, 62826865, 62829218, 62831572, 62833926, 62836279, 62838633,
    62840987, 62890569, 62940151, 62989733, 63039315, 63088897, 63138479, 63188061, 63237643, 63287225,
    63336807, 63357351, 63377895, 63398439, 63418983, 63439528, 63460072, 63480616, 63501160, 63521704,
    63542248, 63558928, 63575608, 63592288, 63608968, 63625648, 63642327, 63659007, 63675687, 63692367,
    63709047, 63779971, 63850896, 63921821, 63992745, 64063670, 64134595, 64205519, 64276444, 64347369,
    64418293, 64512504, 64606714, 64700924, 64795135, 64889345, 64983555, 65077766, 65171976, 65266186,
    65360397, 65423373, 65486349, 65549325, 65612301, 65675277, 65738253, 65801229, 65864205, 65927181,
    65990157, 66084808, 66179459, 66274111, 66368762, 66463413, 66558065, 66652716, 66747367, 66842019,
    66936670, 67084270, 67231870, 67379470, 67527070, 67674670, 67822270, 67969870, 68117470, 68265070,
    68412670, 68699645, 68986619, 69273594, 69560569, 69847543, 70134518, 70421493, 70708467, 70995442,
    71282417, 71724769, 72167121, 72609473, 73051825, 73494177, 73936529, 74378881, 74821233, 75263585,
    75705937, 76857519, 78009102, 79160684, 80312267, 81463849, 82615432, 83767014, 84918597, 86070179,
    87221762, 91030431, 94839101, 98647771, 102456440, 106265110, 110073780, 113882449, 117691119,
    121499789, 125308458, 133360902, 141413345, 149465788, 157518232, 165570675, 173623118, 181675562,
    189728005, 197780448, 205832892, 215775898, 225718903, 235661909, 245604915, 255547921, 265490927,
    275433933, 285376938, 295319944, 305262950, 313052110, 320841270, 328630430, 336419590, 344208750,
    351997910, 359787070, 367576230, 375365390, 383154550, 387933383, 392712215, 397491048, 402269880,
    407048713, 411827545, 416606378, 421385210, 426164043, 430942875, 434763645, 438584415, 442405185,
    446225955, 450046725, 453867495, 457688265, 461509035, 465329805, 469150575, 474024545, 478898515,
    483772485, 488646455, 493520425, 498394395, 503268365, 508142335, 513016305, 517890275, 522894058,
    527897840, 532901623, 537905405, 542909188, 547912970, 552916753, 557920535, 562924318, 567928100,
    571823276, 575718452, 579613628, 583508803, 587403979, 591299155, 595194331, 599089507, 602984683,
    606879858, 608996518, 611113177, 613229836, 615346495, 617463154, 619579813, 621696473, 623813132,
    625929791, 628046450, 628944887, 629843323, 630741760, 631640197, 632538633, 633437070, 634335507,
    635233943, 636132380, 637030817, 637326863, 637622908, 637918954, 638215000, 638511046, 638807092,
    639103138, 639399183, 639695229, 639991275, 640190068, 640388862, 640587655, 640786448, 640985242,
    641184035, 641382828, 641581622, 641780415, 641979208, 642326169, 642673130, 643020091, 643367052,
    643714013, 644060973, 644407934, 644754895, 645101856, 645448817, 645727897, 646006977, 646286057,
    646565137, 646844217, 647123297, 647402377, 647681457, 647960537, 648239617, 648517497, 648795377,
    649073257, 649351137, 649629017, 649906897, 650184777, 650462657, 650740537, 651018417, 651223242,
    651428067, 651632892, 651837717, 652042542, 652247367, 652452192, 652657017, 652861842, 653066667,
    653495580, 653924493, 654353407, 654782320, 655211233, 655640147, 656069060, 656497973, 656926887,
    657355800, 658023494, 658691188, 659358883, 660026577, 660694271, 661361965, 662029659, 662697353,
    663365048, 664032742, 664894690, 665756638, 666618587, 667480535, 668342483, 669204432, 670066380,
    670928328, 671790277, 672652225, 673357150, 674062075, 674767000, 675471925, 676176850, 676881775,
    677586700, 678291625, 678996550, 679701475, 680107636, 680513797, 680919958, 681326118, 681732279,
    682138440, 682544601, 682950762, 683356923, 683763083, 684215498, 684667913, 685120328, 685572743,
    686025158, 686477573, 686929988, 687382403, 687834818, 688287233, 619458510, 550629787, 481801063,
    412972340, 344143617, 275314893, 206486170, 137657447, 68828723, 0, 0, 0, 0, 0, 0, 0, 0, 0, 0, 0, 0, 0,
    0, 0, 0, 0, 0, 0, 0, 0, 0, 0, 0, 0, 0, 0, 0, 0, 0, 0, 0, 0, 0, 0, 0, 0, 0, 0, 0]
  len := by decide +kernel

/-- `Macbeth21` (hpp:6773-6819). -/
def Macbeth21 : Table where
  scale := 9
  m := [
    66244793, 67483929, 68723065, 69962201, 71201337, 72440473, 73679608, 74918744, 76157880, 77397016,
    78636152, 80931439, 83226725, 85522012, 87817299, 90112586, 92407873, 94703160, 96998446, 99293733,
    101589020, 105984264, 110379508, 114774752, 119169995, 123565239, 127960483, 132355727, 136750971,
    141146215, 145541458, 150938738, 156336017, 161733296, 167130575, 172527854, 177925133, 183322413,
    188719692, 194116971, 199514250, 204002765, 208491280, 212979795, 217468310, 221956825, 226445340,
    230933855, 235422370, 239910885, 244399400, 248209173, 252018945, 255828718, 259638490, 263448263,
    267258035, 271067808, 274877580, 278687353, 282497125, 285183190, 287869255, 290555320, 293241385,
    295927450, 298613515, 301299580, 303985645, 306671710, 309357775, 309180931, 309004087, 308827243,
    308650398, 308473554, 308296710, 308119866, 307943022, 307766178, 307589333, 304611171, 301633008,
    298654846, 295676683, 292698521, 289720358, 286742196, 283764033, 280785871, 277807708, 273113663,
    268419618, 263725573, 259031528, 254337483, 249643438, 244949393, 240255348, 235561303, 230867258,
    225534513, 220201767, 214869021, 209536275, 204203529, 198870783, 193538038, 188205292, 182872546,
    177539800, 172757168, 167974537, 163191905, 158409273, 153626642, 148844010, 144061378, 139278747,
    134496115, 129713483, 126170058, 122626632, 119083206, 115539780, 111996354, 108452928, 104909503,
    101366077, 97822651, 94279225, 91805435, 89331646, 86857856, 84384066, 81910277, 79436487, 76962697,
    74488908, 72015118, 69541328, 67986135, 66430942, 64875749, 63320556, 61765363, 60210170, 58654977,
    57099784, 55544591, 53989398, 53172617, 52355836, 51539055, 50722274, 49905493, 49088711, 48271930,
    47455149, 46638368, 45821587, 45406130, 44990673, 44575217, 44159760, 43744303, 43328847, 42913390,
    42497933, 42082477, 41667020, 41444174, 41221328, 40998483, 40775637, 40552791, 40329945, 40107099,
    39884253, 39661408, 39438562, 39325710, 39212859, 39100007, 38987156, 38874304, 38761453, 38648601,
    38535750, 38422898, 38310047, 38254032, 38198017, 38142002, 38085987, 38029973, 37973958, 37917943,
    37861928, 37805913, 37749898, 37750194, 37750490, 37750786, 37751082, 37751378, 37751674, 37751970,
    37752266, 37752562, 37752858, 37774517, 37796176, 37817835, 37839494, 37861153, 37882811, 37904470,
    37926129, 37947788, 37969447, 38024552, 38079657, 38134763, 38189868, 38244973, 38300079, 38355184,
    38410289, 38465395, 38520500, 38593144, 38665789, 38738433, 38811077, 38883722, 38956366, 39029010,
    39101655, 39174299, 39246943, 39308816, 39370688, 39432561, 39494433, 39556306, 39618178, 39680051,
    39741923, 39803796, 39865668, 39958673, 40051677, 40144682, 40237686, 40330691, 40423695, 40516700,
    40609704, 40702709, 40795713, 40948515, 41101316, 41254117, 41406919, 41559720, 41712521, 41865323,
    42018124, 42170925, 42323727, 42509255, 42694784, 42880312, 43065841, 43251369, 43436898, 43622426,
    43807955, 43993483, 44179012, 44308460, 44437908, 44567356, 44696804, 44826252, 44955700, 45085148,
    45214596, 45344044, 45473492, 45510572, 45547653, 45584734, 45621814, 45658895, 45695976, 45733056,
    45770137, 45807218, 45844298, 45901646, 45958994, 46016342, 46073690, 46131038, 46188385, 46245733,
    46303081, 46360429, 46417777, 46612773, 46807770, 47002766, 47197763, 47392759, 47587756, 47782752,
    47977749, 48172745, 48367742, 48748155, 49128568, 49508982, 49889395, 50269808, 50650222, 51030635,
    51411048, 51791462, 52171875, 52685790, 53199704, 53713619, 54227534, 54741448, 55255363, 55769278,
    56283192, 56797107, 57311022, 58078237, 58845453, 59612669, 60379884, 61147100, 61914316, 62681531,
    63448747, 64215963, 64983178, 58484861, 51986543, 45488225, 38989907, 32491589, 25993271, 19494954,
    12996636, 6498318, 0, 0, 0, 0, 0, 0, 0, 0, 0, 0, 0, 0, 0, 0, 0, 0, 0, 0, 0, 0, 0, 0, 0, 0, 0, 0, 0, 0,
    0, 0, 0, 0, 0, 0, 0, 0, 0, 0, 0, 0]
  len := by decide +kernel

/-- `Macbeth22` (hpp:6821-6867). -/
def Macbeth22 : Table where
  scale := 9
  m := [
    51950585, 52061574, 52172564, 52283553, 52394542, 52505532, 52616521, 52727510, 52838500, 52949489,
    53060478, 53174412, 53288345, 53402279, 53516212, 53630146, 53744079, 53858013, 53971946, 54085880,
    54199813, 54324554, 54449295, 54574036, 54698777, 54823518, 54948259, 55073000, 55197741, 55322482,
    55447223, 55579124, 55711025, 55842925, 55974826, 56106727, 56238627, 56370528, 56502429, 56634329,
    56766230, 56945853, 57125476, 57305099, 57484722, 57664345, 57843968, 58023591, 58203214, 58382837,
    58562460, 58843538, 59124616, 59405694, 59686771, 59967849, 60248927, 60530005, 60811083, 61092161,
    61373238, 61811859, 62250479, 62689099, 63127720, 63566340, 64004960, 64443581, 64882201, 65320821,
    65759442, 66666911, 67574380, 68481849, 69389318, 70296788, 71204257, 72111726, 73019195, 73926664,
    74834133, 76619936, 78405738, 80191540, 81977342, 83763144, 85548946, 87334749, 89120551, 90906353,
    92692155, 95911162, 99130169, 102349176, 105568183, 108787190, 112006197, 115225204, 118444211,
    121663218, 124882225, 130183128, 135484032, 140784935, 146085838, 151386742, 156687645, 161988548,
    167289452, 172590355, 177891258, 184680648, 191470038, 198259428, 205048818, 211838208, 218627598,
    225416988, 232206378, 238995768, 245785158, 251931720, 258078282, 264224843, 270371405, 276517967,
    282664528, 288811090, 294957652, 301104213, 307250775, 310241468, 313232160, 316222853, 319213545,
    322204238, 325194930, 328185623, 331176315, 334167008, 337157700, 336795513, 336433325, 336071138,
    335708950, 335346763, 334984575, 334622388, 334260200, 333898013, 333535825, 331835113, 330134400,
    328433688, 326732975, 325032263, 323331550, 321630838, 319930125, 318229413, 316528700, 314175215,
    311821730, 309468245, 307114760, 304761275, 302407790, 300054305, 297700820, 295347335, 292993850,
    289880905, 286767960, 283655015, 280542070, 277429125, 274316180, 271203235, 268090290, 264977345,
    261864400, 258677209, 255490018, 252302828, 249115637, 245928446, 242741255, 239554064, 236366873,
    233179683, 229992492, 226758610, 223524728, 220290847, 217056965, 213823083, 210589202, 207355320,
    204121438, 200887557, 197653675, 194392049, 191130423, 187868798, 184607172, 181345546, 178083920,
    174822294, 171560668, 168299043, 165037417, 162034949, 159032482, 156030014, 153027547, 150025079,
    147022612, 144020144, 141017677, 138015209, 135012742, 133001506, 130990270, 128979034, 126967798,
    124956563, 122945327, 120934091, 118922855, 116911619, 114900383, 113807521, 112714659, 111621797,
    110528935, 109436073, 108343211, 107250349, 106157487, 105064625, 103971763, 103366052, 102760340,
    102154628, 101548916, 100943204, 100337492, 99731781, 99126069, 98520357, 97914645, 97562141, 97209637,
    96857133, 96504629, 96152125, 95799621, 95447117, 95094613, 94742109, 94389605, 94185508, 93981411,
    93777314, 93573216, 93369119, 93165022, 92960925, 92756828, 92552731, 92348633, 92390764, 92432894,
    92475024, 92517155, 92559285, 92601415, 92643546, 92685676, 92727806, 92769937, 93145610, 93521283,
    93896957, 94272630, 94648303, 95023977, 95399650, 95775323, 96150997, 96526670, 97114159, 97701649,
    98289138, 98876627, 99464117, 100051606, 100639095, 101226585, 101814074, 102401563, 103003696,
    103605828, 104207960, 104810093, 105412225, 106014357, 106616490, 107218622, 107820754, 108422887,
    108925907, 109428927, 109931948, 110434968, 110937988, 111441009, 111944029, 112447049, 112950070,
    113453090, 113640370, 113827650, 114014930, 114202210, 114389490, 114576770, 114764050, 114951330,
    115138610, 115325890, 115185591, 115045292, 114904993, 114764693, 114624394, 114484095, 114343796,
    114203497, 114063198, 113922898, 113957618, 113992338, 114027058, 114061778, 114096498, 114131218,
    114165938, 114200658, 114235378, 114270098, 102843089, 91416079, 79989069, 68562059, 57135049, 45708039,
    34281030, 22854020, 11427010, 0, 0, 0, 0, 0, 0, 0, 0, 0, 0, 0, 0, 0, 0, 0, 0, 0, 0, 0, 0, 0, 0, 0, 0, 0,
    0, 0, 0, 0, 0, 0, 0, 0, 0, 0, 0, 0, 0, 0, 0]
  len := by decide +kernel

/-- `Macbeth23` (hpp:6869-6915). -/
def Macbeth23 : Table where
  scale := 9
  m := [
    49923225, 49808127, 49693028, 49577930, 49462832, 49347733, 49232635, 49117537, 49002438, 48887340,
    48772242, 48654367, 48536492, 48418618, 48300743, 48182868, 48064994, 47947119, 47829244, 47711370,
    47593495, 47557731, 47521968, 47486204, 47450440, 47414677, 47378913, 47343149, 47307386, 47271622,
    47235858, 47228584, 47221309, 47214034, 47206759, 47199484, 47192209, 47184935, 47177660, 47170385,
    47163110, 47182243, 47201376, 47220509, 47239641, 47258774, 47277907, 47297040, 47316173, 47335306,
    47354438, 47360874, 47367309, 47373745, 47380180, 47386616, 47393051, 47399487, 47405922, 47412358,
    47418793, 47368927, 47319061, 47269195, 47219329, 47169463, 47119597, 47069731, 47019865, 46969999,
    46920133, 46835367, 46750601, 46665835, 46581069, 46496303, 46411537, 46326771, 46242005, 46157239,
    46072473, 45982751, 45893029, 45803307, 45713585, 45623863, 45534140, 45444418, 45354696, 45264974,
    45175252, 45101658, 45028063, 44954469, 44880875, 44807281, 44733687, 44660093, 44586498, 44512904,
    44439310, 44424251, 44409192, 44394133, 44379074, 44364015, 44348956, 44333897, 44318838, 44303779,
    44288720, 44327930, 44367140, 44406350, 44445560, 44484770, 44523980, 44563190, 44602400, 44641610,
    44680820, 44772309, 44863799, 44955288, 45046777, 45138267, 45229756, 45321245, 45412735, 45504224,
    45595713, 45714163, 45832613, 45951063, 46069513, 46187963, 46306413, 46424863, 46543313, 46661763,
    46780213, 46866198, 46952183, 47038167, 47124152, 47210137, 47296121, 47382106, 47468091, 47554075,
    47640060, 47734641, 47829222, 47923803, 48018383, 48112964, 48207545, 48302126, 48396707, 48491288,
    48585868, 48763807, 48941745, 49119684, 49297622, 49475561, 49653499, 49831438, 50009376, 50187315,
    50365253, 50713413, 51061572, 51409731, 51757891, 52106050, 52454209, 52802369, 53150528, 53498687,
    53846847, 54448226, 55049604, 55650983, 56252362, 56853741, 57455120, 58056499, 58657877, 59259256,
    59860635, 61086313, 62311991, 63537669, 64763347, 65989025, 67214703, 68440381, 69666059, 70891737,
    72117415, 75261560, 78405705, 81549850, 84693995, 87838140, 90982285, 94126430, 97270575, 100414720,
    103558865, 110955209, 118351554, 125747898, 133144242, 140540587, 147936931, 155333275, 162729620,
    170125964, 177522308, 190977247, 204432185, 217887123, 231342062, 244797000, 258251938, 271706877,
    285161815, 298616753, 312071692, 327547810, 343023928, 358500047, 373976165, 389452283, 404928402,
    420404520, 435880638, 451356757, 466832875, 478232743, 489632612, 501032480, 512432348, 523832217,
    535232085, 546631953, 558031822, 569431690, 580831558, 587191888, 593552218, 599912548, 606272878,
    612633208, 618993538, 625353868, 631714198, 638074528, 644434858, 647475183, 650515507, 653555831,
    656596155, 659636479, 662676803, 665717128, 668757452, 671797776, 674838100, 676371843, 677905586,
    679439329, 680973071, 682506814, 684040557, 685574300, 687108043, 688641786, 690175528, 690982426,
    691789324, 692596222, 693403120, 694210018, 695016916, 695823814, 696630712, 697437610, 698244508,
    699011744, 699778980, 700546216, 701313452, 702080688, 702847923, 703615159, 704382395, 705149631,
    705916867, 706820624, 707724382, 708628139, 709531897, 710435654, 711339412, 712243169, 713146927,
    714050684, 714954442, 715829284, 716704127, 717578969, 718453812, 719328654, 720203497, 721078339,
    721953182, 722828024, 723702867, 724343013, 724983158, 725623304, 726263450, 726903596, 727543742,
    728183888, 728824033, 729464179, 730104325, 730465293, 730826262, 731187230, 731548198, 731909167,
    732270135, 732631103, 732992072, 733353040, 733714008, 734183318, 734652627, 735121936, 735591245,
    736060554, 736529863, 736999173, 737468482, 737937791, 738407100, 664566390, 590725680, 516884970,
    443044260, 369203550, 295362840, 221522130, 147681420, 73840710, 0, 0, 0, 0, 0, 0, 0, 0, 0, 0, 0, 0, 0,
    0, 0, 0, 0, 0, 0, 0, 0, 0, 0, 0, 0, 0, 0, 0, 0, 0, 0, 0, 0, 0, 0, 0, 0, 0, 0, 0]
  len := by decide +kernel

/-- `Macbeth24` (hpp:6917-6963). -/
def Macbeth24 : Table where
  scale := 9
  m := [
    57984715, 57628052, 57271388, 56914725, 56558062, 56201398, 55844735, 55488072, 55131408, 54774745,
    54418082, 54192412, 53966742, 53741073, 53515403, 53289733, 53064064, 52838394, 52612724, 52387055,
    52161385, 52143699, 52126012, 52108326, 52090639, 52072953, 52055266, 52037580, 52019893, 52002207,
    51984520, 52048576, 52112633, 52176689, 52240745, 52304802, 52368858, 52432914, 52496971, 52561027,
    52625083, 52760931, 52896779, 53032627, 53168475, 53304323, 53440170, 53576018, 53711866, 53847714,
    53983562, 54192932, 54402303, 54611674, 54821044, 55030415, 55239786, 55449156, 55658527, 55867898,
    56077268, 56411799, 56746330, 57080861, 57415392, 57749923, 58084454, 58418985, 58753516, 59088047,
    59422578, 60139201, 60855824, 61572446, 62289069, 63005692, 63722314, 64438937, 65155560, 65872182,
    66588805, 67997994, 69407183, 70816372, 72225560, 73634749, 75043938, 76453127, 77862316, 79271505,
    80680693, 83301016, 85921339, 88541662, 91161985, 93782308, 96402630, 99022953, 101643276, 104263599,
    106883922, 111399713, 115915504, 120431295, 124947086, 129462878, 133978669, 138494460, 143010251,
    147526042, 152041833, 159344925, 166648017, 173951108, 181254200, 188557292, 195860383, 203163475,
    210466567, 217769658, 225072750, 236118538, 247164327, 258210115, 269255903, 280301692, 291347480,
    302393268, 313439057, 324484845, 335530633, 348216821, 360903008, 373589196, 386275383, 398961571,
    411647758, 424333946, 437020133, 449706321, 462392508, 472026513, 481660517, 491294521, 500928525,
    510562529, 520196533, 529830538, 539464542, 549098546, 558732550, 564431976, 570131402, 575830828,
    581530253, 587229679, 592929105, 598628531, 604327957, 610027383, 615726808, 619126633, 622526458,
    625926283, 629326108, 632725933, 636125758, 639525583, 642925408, 646325233, 649725058, 651974476,
    654223893, 656473311, 658722728, 660972146, 663221563, 665470981, 667720398, 669969816, 672219233,
    674384135, 676549037, 678713938, 680878840, 683043742, 685208643, 687373545, 689538447, 691703348,
    693868250, 695476616, 697084982, 698693348, 700301713, 701910079, 703518445, 705126811, 706735177,
    708343543, 709951908, 711275701, 712599493, 713923286, 715247078, 716570871, 717894663, 719218456,
    720542248, 721866041, 723189833, 724014358, 724838883, 725663408, 726487933, 727312458, 728136983,
    728961508, 729786033, 730610558, 731435083, 732195703, 732956322, 733716941, 734477560, 735238179,
    735998798, 736759418, 737520037, 738280656, 739041275, 739757163, 740473050, 741188938, 741904825,
    742620713, 743336600, 744052488, 744768375, 745484263, 746200150, 746760517, 747320883, 747881250,
    748441617, 749001983, 749562350, 750122717, 750683083, 751243450, 751803817, 752439286, 753074755,
    753710224, 754345693, 754981163, 755616632, 756252101, 756887570, 757523039, 758158508, 758736744,
    759314980, 759893216, 760471452, 761049688, 761627923, 762206159, 762784395, 763362631, 763940867,
    764415688, 764890510, 765365332, 765840153, 766314975, 766789797, 767264618, 767739440, 768214262,
    768689083, 768918358, 769147632, 769376906, 769606180, 769835454, 770064728, 770294003, 770523277,
    770752551, 770981825, 771434485, 771887145, 772339805, 772792465, 773245125, 773697785, 774150445,
    774603105, 775055765, 775508425, 776197791, 776887157, 777576523, 778265888, 778955254, 779644620,
    780333986, 781023352, 781712718, 782402083, 783179574, 783957065, 784734556, 785512047, 786289538,
    787067028, 787844519, 788622010, 789399501, 790176992, 790778270, 791379548, 791980827, 792582105,
    793183383, 793784662, 794385940, 794987218, 795588497, 796189775, 796500418, 796811062, 797121705,
    797432348, 797742992, 798053635, 798364278, 798674922, 798985565, 799296208, 799732681, 800169153,
    800605626, 801042098, 801478571, 801915043, 802351516, 802787988, 803224461, 803660933, 723294840,
    642928747, 562562653, 482196560, 401830467, 321464373, 241098280, 160732187, 80366093, 0, 0, 0, 0, 0, 0,
    0, 0, 0, 0, 0, 0, 0, 0, 0, 0, 0, 0, 0, 0, 0, 0, 0, 0, 0, 0, 0, 0, 0, 0, 0, 0, 0, 0, 0, 0, 0, 0, 0, 0]
  len := by decide +kernel

/-- `Macbeth25` (hpp:6965-7011). -/
def Macbeth25 : Table where
  scale := 9
  m := [
    144547292, 149603995, 154660698, 159717402, 164774105, 169830808, 174887512, 179944215, 185000918,
    190057622, 195114325, 203862210, 212610095, 221357980, 230105865, 238853750, 247601635, 256349520,
    265097405, 273845290, 282593175, 288910735, 295228295, 301545855, 307863415, 314180975, 320498535,
    326816095, 333133655, 339451215, 345768775, 347374304, 348979833, 350585363, 352190892, 353796421,
    355401950, 357007479, 358613008, 360218538, 361824067, 361073996, 360323925, 359573854, 358823783,
    358073713, 357323642, 356573571, 355823500, 355073429, 354323358, 352252065, 350180772, 348109478,
    346038185, 343966892, 341895598, 339824305, 337753012, 335681718, 333610425, 330820404, 328030383,
    325240363, 322450342, 319660321, 316870300, 314080279, 311290258, 308500238, 305710217, 302761862,
    299813507, 296865152, 293916797, 290968442, 288020087, 285071732, 282123377, 279175022, 276226667,
    273359616, 270492565, 267625514, 264758463, 261891413, 259024362, 256157311, 253290260, 250423209,
    247556158, 244605828, 241655498, 238705168, 235754838, 232804508, 229854178, 226903848, 223953518,
    221003188, 218052858, 215235745, 212418632, 209601518, 206784405, 203967292, 201150178, 198333065,
    195515952, 192698838, 189881725, 187679393, 185477062, 183274730, 181072398, 178870067, 176667735,
    174465403, 172263072, 170060740, 167858408, 165968076, 164077743, 162187411, 160297078, 158406746,
    156516413, 154626081, 152735748, 150845416, 148955083, 146756609, 144558135, 142359661, 140161187,
    137962713, 135764238, 133565764, 131367290, 129168816, 126970342, 124996610, 123022878, 121049147,
    119075415, 117101683, 115127952, 113154220, 111180488, 109206757, 107233025, 106471288, 105709550,
    104947813, 104186075, 103424338, 102662600, 101900863, 101139125, 100377388, 99615650, 99842944,
    100070238, 100297533, 100524827, 100752121, 100979415, 101206709, 101434003, 101661298, 101888592,
    102055773, 102222955, 102390137, 102557318, 102724500, 102891682, 103058863, 103226045, 103393227,
    103560408, 104111032, 104661655, 105212278, 105762902, 106313525, 106864148, 107414772, 107965395,
    108516018, 109066642, 111840288, 114613935, 117387582, 120161228, 122934875, 125708522, 128482168,
    131255815, 134029462, 136803108, 143085450, 149367792, 155650133, 161932475, 168214817, 174497158,
    180779500, 187061842, 193344183, 199626525, 208676675, 217726825, 226776975, 235827125, 244877275,
    253927425, 262977575, 272027725, 281077875, 290128025, 301121203, 312114382, 323107560, 334100738,
    345093917, 356087095, 367080273, 378073452, 389066630, 400059808, 411633658, 423207507, 434781356,
    446355205, 457929054, 469502903, 481076753, 492650602, 504224451, 515798300, 525704643, 535610985,
    545517328, 555423670, 565330013, 575236355, 585142698, 595049040, 604955383, 614861725, 622030803,
    629199882, 636368960, 643538038, 650707117, 657876195, 665045273, 672214352, 679383430, 686552508,
    691074170, 695595832, 700117493, 704639155, 709160817, 713682478, 718204140, 722725802, 727247463,
    731769125, 734567121, 737365117, 740163113, 742961108, 745759104, 748557100, 751355096, 754153092,
    756951088, 759749083, 761206923, 762664762, 764122601, 765580440, 767038279, 768496118, 769953958,
    771411797, 772869636, 774327475, 775209151, 776090827, 776972503, 777854178, 778735854, 779617530,
    780499206, 781380882, 782262558, 783144233, 784085772, 785027310, 785968848, 786910387, 787851925,
    788793463, 789735002, 790676540, 791618078, 792559617, 793640925, 794722233, 795803542, 796884850,
    797966158, 799047467, 800128775, 801210083, 802291392, 803372700, 804190628, 805008555, 805826483,
    806644410, 807462338, 808280265, 809098193, 809916120, 810734048, 811551975, 812114972, 812677968,
    813240965, 813803962, 814366958, 814929955, 815492952, 816055948, 816618945, 817181942, 818004698,
    818827453, 819650209, 820472965, 821295721, 822118477, 822941233, 823763988, 824586744, 825409500,
    742868550, 660327600, 577786650, 495245700, 412704750, 330163800, 247622850, 165081900, 82540950, 0, 0,
    0, 0, 0, 0, 0, 0, 0, 0, 0, 0, 0, 0, 0, 0, 0, 0, 0, 0, 0, 0, 0, 0, 0, 0, 0, 0, 0, 0, 0, 0, 0, 0, 0, 0, 0,
    0, 0, 0]
  len := by decide +kernel

/-- `Macbeth26` (hpp:7013-7059). -/
def Macbeth26 : Table where
  scale := 9
  m := [
    107731417, 111077022, 114422627, 117768232, 121113837, 124459442, 127805047, 131150652, 134496257,
    137841862, 141187467, 146315534, 151443602, 156571669, 161699737, 166827804, 171955872, 177083939,
    182212007, 187340074, 192468142, 196862589, 201257037, 205651484, 210045932, 214440379, 218834827,
    223229274, 227623722, 232018169, 236412617, 238856745, 241300873, 243745002, 246189130, 248633258,
    251077387, 253521515, 255965643, 258409772, 260853900, 263318711, 265783522, 268248333, 270713143,
    273177954, 275642765, 278107576, 280572387, 283037198, 285502008, 288691500, 291880992, 295070483,
    298259975, 301449467, 304638958, 307828450, 311017942, 314207433, 317396925, 320970598, 324544270,
    328117943, 331691615, 335265288, 338838960, 342412633, 345986305, 349559978, 353133650, 356843817,
    360553983, 364264150, 367974317, 371684483, 375394650, 379104817, 382814983, 386525150, 390235317,
    393808434, 397381552, 400954669, 404527787, 408100904, 411674022, 415247139, 418820257, 422393374,
    425966492, 427930518, 429894545, 431858572, 433822598, 435786625, 437750652, 439714678, 441678705,
    443642732, 445606758, 445469133, 445331508, 445193883, 445056258, 444918633, 444781008, 444643383,
    444505758, 444368133, 444230508, 442128823, 440027137, 437925451, 435823765, 433722079, 431620393,
    429518708, 427417022, 425315336, 423213650, 419441042, 415668433, 411895825, 408123217, 404350608,
    400578000, 396805392, 393032783, 389260175, 385487567, 380610718, 375733868, 370857019, 365980170,
    361103321, 356226472, 351349623, 346472773, 341595924, 336719075, 331320268, 325921462, 320522655,
    315123848, 309725042, 304326235, 298927428, 293528622, 288129815, 282731008, 277586156, 272441303,
    267296451, 262151598, 257006746, 251861893, 246717041, 241572188, 236427336, 231282483, 226659771,
    222037058, 217414346, 212791633, 208168921, 203546208, 198923496, 194300783, 189678071, 185055358,
    181103803, 177152248, 173200693, 169249138, 165297583, 161346028, 157394473, 153442918, 149491363,
    145539808, 142792583, 140045357, 137298131, 134550905, 131803679, 129056453, 126309228, 123562002,
    120814776, 118067550, 116313407, 114559264, 112805121, 111050978, 109296835, 107542692, 105788549,
    104034406, 102280263, 100526120, 99431749, 98337378, 97243008, 96148637, 95054266, 93959895, 92865524,
    91771153, 90676783, 89582412, 88780049, 87977686, 87175323, 86372960, 85570597, 84768234, 83965871,
    83163508, 82361145, 81558782, 81042520, 80526259, 80009997, 79493736, 78977474, 78461213, 77944951,
    77428690, 76912428, 76396167, 76162454, 75928742, 75695029, 75461317, 75227604, 74993892, 74760179,
    74526467, 74292754, 74059042, 73958450, 73857859, 73757268, 73656676, 73556085, 73455494, 73354902,
    73254311, 73153720, 73053128, 73042195, 73031262, 73020328, 73009395, 72998462, 72987528, 72976595,
    72965662, 72954728, 72943795, 73030288, 73116780, 73203273, 73289766, 73376258, 73462751, 73549244,
    73635736, 73722229, 73808722, 73986753, 74164784, 74342815, 74520846, 74698878, 74876909, 75054940,
    75232971, 75411002, 75589033, 75705172, 75821311, 75937450, 76053589, 76169728, 76285867, 76402006,
    76518145, 76634284, 76750423, 76723240, 76696057, 76668874, 76641691, 76614508, 76587324, 76560141,
    76532958, 76505775, 76478592, 76329891, 76181190, 76032489, 75883788, 75735087, 75586386, 75437685,
    75288984, 75140283, 74991582, 74769379, 74547177, 74324975, 74102772, 73880570, 73658368, 73436165,
    73213963, 72991761, 72769558, 72692466, 72615373, 72538280, 72461188, 72384095, 72307002, 72229910,
    72152817, 72075724, 71998632, 72173265, 72347897, 72522530, 72697163, 72871796, 73046429, 73221062,
    73395694, 73570327, 73744960, 74305955, 74866949, 75427944, 75988939, 76549933, 77110928, 77671923,
    78232917, 78793912, 79354907, 71419416, 63483925, 55548435, 47612944, 39677453, 31741963, 23806472,
    15870981, 7935491, 0, 0, 0, 0, 0, 0, 0, 0, 0, 0, 0, 0, 0, 0, 0, 0, 0, 0, 0, 0, 0, 0, 0, 0, 0, 0, 0, 0,
    0, 0, 0, 0, 0, 0, 0, 0, 0, 0, 0, 0]
  len := by decide +kernel

/-- `Macbeth31` (hpp:7061-7107). -/
def Macbeth31 : Table where
  scale := 9
  m := [
    189362217, 195889904, 202417592, 208945279, 215472967, 222000654, 228528342, 235056029, 241583717,
    248111404, 254639092, 271435503, 288231913, 305028324, 321824735, 338621146, 355417557, 372213968,
    389010378, 405806789, 422603200, 446363808, 470124417, 493885025, 517645633, 541406242, 565166850,
    588927458, 612688067, 636448675, 660209283, 675285888, 690362493, 705439098, 720515703, 735592308,
    750668913, 765745518, 780822123, 795898728, 810975333, 816089584, 821203835, 826318086, 831432337,
    836546588, 841660838, 846775089, 851889340, 857003591, 862117842, 863563629, 865009417, 866455204,
    867900992, 869346779, 870792567, 872238354, 873684142, 875129929, 876575717, 877335507, 878095297,
    878855087, 879614877, 880374667, 881134457, 881894247, 882654037, 883413827, 884173617, 884859832,
    885546047, 886232262, 886918477, 887604692, 888290907, 888977122, 889663337, 890349552, 891035767,
    891498596, 891961425, 892424254, 892887083, 893349913, 893812742, 894275571, 894738400, 895201229,
    895664058, 896029293, 896394528, 896759763, 897124998, 897490233, 897855468, 898220703, 898585938,
    898951173, 899316408, 899754399, 900192390, 900630381, 901068372, 901506363, 901944353, 902382344,
    902820335, 903258326, 903696317, 904045051, 904393785, 904742519, 905091253, 905439988, 905788722,
    906137456, 906486190, 906834924, 907183658, 907373738, 907563817, 907753896, 907943975, 908134054,
    908324133, 908514213, 908704292, 908894371, 909084450, 909267110, 909449770, 909632430, 909815090,
    909997750, 910180410, 910363070, 910545730, 910728390, 910911050, 910825224, 910739398, 910653573,
    910567747, 910481921, 910396095, 910310269, 910224443, 910138618, 910052792, 910169041, 910285290,
    910401539, 910517788, 910634038, 910750287, 910866536, 910982785, 911099034, 911215283, 911495718,
    911776152, 912056586, 912337020, 912617454, 912897888, 913178323, 913458757, 913739191, 914019625,
    913960303, 913900982, 913841660, 913782338, 913723017, 913663695, 913604373, 913545052, 913485730,
    913426408, 913685639, 913944870, 914204101, 914463332, 914722563, 914981793, 915241024, 915500255,
    915759486, 916018717, 915964848, 915910978, 915857109, 915803240, 915749371, 915695502, 915641633,
    915587763, 915533894, 915480025, 915516173, 915552322, 915588470, 915624618, 915660767, 915696915,
    915733063, 915769212, 915805360, 915841508, 915690810, 915540112, 915389413, 915238715, 915088017,
    914937318, 914786620, 914635922, 914485223, 914334525, 914447788, 914561050, 914674313, 914787575,
    914900838, 915014100, 915127363, 915240625, 915353888, 915467150, 915684095, 915901040, 916117985,
    916334930, 916551875, 916768820, 916985765, 917202710, 917419655, 917636600, 917735608, 917834617,
    917933625, 918032633, 918131642, 918230650, 918329658, 918428667, 918527675, 918626683, 918865424,
    919104165, 919342906, 919581647, 919820388, 920059128, 920297869, 920536610, 920775351, 921014092,
    921203662, 921393232, 921582802, 921772372, 921961942, 922151512, 922341082, 922530652, 922720222,
    922909792, 923004354, 923098917, 923193479, 923288042, 923382604, 923477167, 923571729, 923666292,
    923760854, 923855417, 923668726, 923482036, 923295345, 923108655, 922921964, 922735274, 922548583,
    922361893, 922175202, 921988512, 922031691, 922074871, 922118051, 922161230, 922204410, 922247590,
    922290769, 922333949, 922377129, 922420308, 922655382, 922890455, 923125528, 923360602, 923595675,
    923830748, 924065822, 924300895, 924535968, 924771042, 925042622, 925314202, 925585782, 925857362,
    926128942, 926400522, 926672102, 926943682, 927215262, 927486842, 927715248, 927943653, 928172059,
    928400465, 928628871, 928857277, 929085683, 929314088, 929542494, 929770900, 929834968, 929899037,
    929963105, 930027173, 930091242, 930155310, 930219378, 930283447, 930347515, 930411583, 930699356,
    930987128, 931274901, 931562673, 931850446, 932138218, 932425991, 932713763, 933001536, 933289308,
    839960378, 746631447, 653302516, 559973585, 466644654, 373315723, 279986793, 186657862, 93328931, 0, 0,
    0, 0, 0, 0, 0, 0, 0, 0, 0, 0, 0, 0, 0, 0, 0, 0, 0, 0, 0, 0, 0, 0, 0, 0, 0, 0, 0, 0, 0, 0, 0, 0, 0, 0, 0,
    0, 0, 0]
  len := by decide +kernel

/-- `Macbeth32` (hpp:7109-7155). -/
def Macbeth32 : Table where
  scale := 9
  m := [
    170848750, 176969716, 183090682, 189211648, 195332613, 201453579, 207574545, 213695511, 219816477,
    225937443, 232058408, 245359243, 258660078, 271960913, 285261748, 298562583, 311863418, 325164253,
    338465088, 351765923, 365066758, 379215755, 393364752, 407513748, 421662745, 435811742, 449960738,
    464109735, 478258732, 492407728, 506556725, 512649794, 518742863, 524835933, 530929002, 537022071,
    543115140, 549208209, 555301278, 561394348, 567487417, 569008233, 570529050, 572049867, 573570683,
    575091500, 576612317, 578133133, 579653950, 581174767, 582695583, 583196129, 583696675, 584197221,
    584697767, 585198313, 585698858, 586199404, 586699950, 587200496, 587701042, 587940117, 588179192,
    588418267, 588657342, 588896417, 589135492, 589374567, 589613642, 589852717, 590091792, 590181816,
    590271840, 590361864, 590451888, 590541913, 590631937, 590721961, 590811985, 590902009, 590992033,
    590869947, 590747860, 590625773, 590503687, 590381600, 590259513, 590137427, 590015340, 589893253,
    589771167, 589634701, 589498235, 589361769, 589225303, 589088838, 588952372, 588815906, 588679440,
    588542974, 588406508, 588408395, 588410282, 588412168, 588414055, 588415942, 588417828, 588419715,
    588421602, 588423488, 588425375, 588480734, 588536093, 588591453, 588646812, 588702171, 588757530,
    588812889, 588868248, 588923608, 588978967, 589029458, 589079950, 589130442, 589180933, 589231425,
    589281917, 589332408, 589382900, 589433392, 589483883, 589594587, 589705290, 589815993, 589926697,
    590037400, 590148103, 590258807, 590369510, 590480213, 590590917, 590533679, 590476442, 590419204,
    590361967, 590304729, 590247492, 590190254, 590133017, 590075779, 590018542, 590006389, 589994237,
    589982084, 589969932, 589957779, 589945627, 589933474, 589921322, 589909169, 589897017, 589937540,
    589978063, 590018587, 590059110, 590099633, 590140157, 590180680, 590221203, 590261727, 590302250,
    590201258, 590100265, 589999273, 589898280, 589797288, 589696295, 589595303, 589494310, 589393318,
    589292325, 589457419, 589622513, 589787608, 589952702, 590117796, 590282890, 590447984, 590613078,
    590778173, 590943267, 590879753, 590816240, 590752727, 590689213, 590625700, 590562187, 590498673,
    590435160, 590371647, 590308133, 590248664, 590189195, 590129726, 590070257, 590010788, 589951318,
    589891849, 589832380, 589772911, 589713442, 589455258, 589197073, 588938889, 588680705, 588422521,
    588164337, 587906153, 587647968, 587389784, 587131600, 586933215, 586734830, 586536445, 586338060,
    586139675, 585941290, 585742905, 585544520, 585346135, 585147750, 584937078, 584726407, 584515735,
    584305063, 584094392, 583883720, 583673048, 583462377, 583251705, 583041033, 582733138, 582425242,
    582117346, 581809450, 581501554, 581193658, 580885763, 580577867, 580269971, 579962075, 579744815,
    579527555, 579310295, 579093035, 578875775, 578658515, 578441255, 578223995, 578006735, 577789475,
    577605334, 577421193, 577237053, 577052912, 576868771, 576684630, 576500489, 576316348, 576132208,
    575948067, 575793163, 575638260, 575483357, 575328453, 575173550, 575018647, 574863743, 574708840,
    574553937, 574399033, 574180169, 573961305, 573742441, 573523577, 573304713, 573085848, 572866984,
    572648120, 572429256, 572210392, 572050543, 571890693, 571730844, 571570995, 571411146, 571251297,
    571091448, 570931598, 570771749, 570611900, 570473113, 570334325, 570195538, 570056750, 569917963,
    569779175, 569640388, 569501600, 569362813, 569224025, 569129288, 569034552, 568939815, 568845078,
    568750342, 568655605, 568560868, 568466132, 568371395, 568276658, 568245926, 568215193, 568184461,
    568153728, 568122996, 568092263, 568061531, 568030798, 568000066, 567969333, 567820551, 567671768,
    567522986, 567374203, 567225421, 567076638, 566927856, 566779073, 566630291, 566481508, 566464265,
    566447022, 566429778, 566412535, 566395292, 566378048, 566360805, 566343562, 566326318, 566309075,
    509678168, 453047260, 396416353, 339785445, 283154538, 226523630, 169892723, 113261815, 56630908, 0, 0,
    0, 0, 0, 0, 0, 0, 0, 0, 0, 0, 0, 0, 0, 0, 0, 0, 0, 0, 0, 0, 0, 0, 0, 0, 0, 0, 0, 0, 0, 0, 0, 0, 0, 0, 0,
    0, 0, 0]
  len := by decide +kernel

/-- `Macbeth33` (hpp:7157-7203). -/
def Macbeth33 : Table where
  scale := 9
  m := [
    144208200, 149032892, 153857583, 158682275, 163506967, 168331658, 173156350, 177981042, 182805733,
    187630425, 192455117, 200393591, 208332065, 216270539, 224209013, 232147488, 240085962, 248024436,
    255962910, 263901384, 271839858, 277737250, 283634642, 289532033, 295429425, 301326817, 307224208,
    313121600, 319018992, 324916383, 330813775, 332774350, 334734925, 336695500, 338656075, 340616650,
    342577225, 344537800, 346498375, 348458950, 350419525, 351069437, 351719348, 352369260, 353019172,
    353669083, 354318995, 354968907, 355618818, 356268730, 356918642, 357349918, 357781193, 358212469,
    358643745, 359075021, 359506297, 359937573, 360368848, 360800124, 361231400, 361434438, 361637477,
    361840515, 362043553, 362246592, 362449630, 362652668, 362855707, 363058745, 363261783, 363232583,
    363203382, 363174181, 363144980, 363115779, 363086578, 363057378, 363028177, 362998976, 362969775,
    362753800, 362537825, 362321850, 362105875, 361889900, 361673925, 361457950, 361241975, 361026000,
    360810025, 360602629, 360395233, 360187838, 359980442, 359773046, 359565650, 359358254, 359150858,
    358943463, 358736067, 358673270, 358610473, 358547677, 358484880, 358422083, 358359287, 358296490,
    358233693, 358170897, 358108100, 358142819, 358177538, 358212258, 358246977, 358281696, 358316415,
    358351134, 358385853, 358420573, 358455292, 358528363, 358601435, 358674507, 358747578, 358820650,
    358893722, 358966793, 359039865, 359112937, 359186008, 359308604, 359431200, 359553796, 359676392,
    359798988, 359921583, 360044179, 360166775, 360289371, 360411967, 360416353, 360420738, 360425124,
    360429510, 360433896, 360438282, 360442668, 360447053, 360451439, 360455825, 360466266, 360476707,
    360487148, 360497588, 360508029, 360518470, 360528911, 360539352, 360549793, 360560233, 360587145,
    360614057, 360640968, 360667880, 360694792, 360721703, 360748615, 360775527, 360802438, 360829350,
    360789041, 360748732, 360708423, 360668113, 360627804, 360587495, 360547186, 360506877, 360466568,
    360426258, 360568448, 360710637, 360852826, 360995015, 361137204, 361279393, 361421583, 361563772,
    361705961, 361848150, 361838397, 361828643, 361818890, 361809137, 361799383, 361789630, 361779877,
    361770123, 361760370, 361750617, 361708134, 361665652, 361623169, 361580687, 361538204, 361495722,
    361453239, 361410757, 361368274, 361325792, 361125494, 360925197, 360724899, 360524602, 360324304,
    360124007, 359923709, 359723412, 359523114, 359322817, 359143894, 358964972, 358786049, 358607127,
    358428204, 358249282, 358070359, 357891437, 357712514, 357533592, 357323623, 357113653, 356903684,
    356693715, 356483746, 356273777, 356063808, 355853838, 355643869, 355433900, 355132009, 354830118,
    354528228, 354226337, 353924446, 353622555, 353320664, 353018773, 352716883, 352414992, 352163242,
    351911492, 351659742, 351407992, 351156242, 350904492, 350652742, 350400992, 350149242, 349897492,
    349671781, 349446070, 349220359, 348994648, 348768938, 348543227, 348317516, 348091805, 347866094,
    347640383, 347423158, 347205932, 346988706, 346771480, 346554254, 346337028, 346119803, 345902577,
    345685351, 345468125, 345193043, 344917962, 344642880, 344367798, 344092717, 343817635, 343542553,
    343267472, 342992390, 342717308, 342462254, 342207200, 341952146, 341697092, 341442038, 341186983,
    340931929, 340676875, 340421821, 340166767, 339910130, 339653493, 339396857, 339140220, 338883583,
    338626947, 338370310, 338113673, 337857037, 337600400, 337371173, 337141945, 336912718, 336683490,
    336454263, 336225035, 335995808, 335766580, 335537353, 335308125, 335160589, 335013053, 334865518,
    334717982, 334570446, 334422910, 334275374, 334127838, 333980303, 333832767, 333629798, 333426830,
    333223862, 333020893, 332817925, 332614957, 332411988, 332209020, 332006052, 331803083, 331677119,
    331551155, 331425191, 331299227, 331173263, 331047298, 330921334, 330795370, 330669406, 330543442,
    297489098, 264434753, 231380409, 198326065, 165271721, 132217377, 99163033, 66108688, 33054344, 0, 0, 0,
    0, 0, 0, 0, 0, 0, 0, 0, 0, 0, 0, 0, 0, 0, 0, 0, 0, 0, 0, 0, 0, 0, 0, 0, 0, 0, 0, 0, 0, 0, 0, 0, 0, 0, 0,
    0, 0]
  len := by decide +kernel

/-- `Macbeth34` (hpp:7205-7251). -/
def Macbeth34 : Table where
  scale := 9
  m := [
    105192122, 107805515, 110418907, 113032300, 115645693, 118259086, 120872479, 123485872, 126099264,
    128712657, 131326050, 134453238, 137580427, 140707615, 143834803, 146961992, 150089180, 153216368,
    156343557, 159470745, 162597933, 164354708, 166111483, 167868258, 169625033, 171381808, 173138583,
    174895358, 176652133, 178408908, 180165683, 180740801, 181315918, 181891036, 182466153, 183041271,
    183616388, 184191506, 184766623, 185341741, 185916858, 186278556, 186640253, 187001951, 187363648,
    187725346, 188087043, 188448741, 188810438, 189172136, 189533833, 189866533, 190199233, 190531933,
    190864633, 191197333, 191530033, 191862733, 192195433, 192528133, 192860833, 192997978, 193135122,
    193272266, 193409410, 193546554, 193683698, 193820843, 193957987, 194095131, 194232275, 194187385,
    194142495, 194097605, 194052715, 194007825, 193962935, 193918045, 193873155, 193828265, 193783375,
    193637849, 193492323, 193346798, 193201272, 193055746, 192910220, 192764694, 192619168, 192473643,
    192328117, 192201278, 192074440, 191947602, 191820763, 191693925, 191567087, 191440248, 191313410,
    191186572, 191059733, 191038389, 191017045, 190995701, 190974357, 190953013, 190931668, 190910324,
    190888980, 190867636, 190846292, 190886298, 190926305, 190966312, 191006318, 191046325, 191086332,
    191126338, 191166345, 191206352, 191246358, 191279655, 191312952, 191346248, 191379545, 191412842,
    191446138, 191479435, 191512732, 191546028, 191579325, 191626543, 191673760, 191720978, 191768195,
    191815413, 191862630, 191909848, 191957065, 192004283, 192051500, 192056469, 192061438, 192066408,
    192071377, 192076346, 192081315, 192086284, 192091253, 192096223, 192101192, 192108111, 192115030,
    192121949, 192128868, 192135788, 192142707, 192149626, 192156545, 192163464, 192170383, 192184616,
    192198848, 192213081, 192227313, 192241546, 192255778, 192270011, 192284243, 192298476, 192312708,
    192287254, 192261800, 192236346, 192210892, 192185438, 192159983, 192134529, 192109075, 192083621,
    192058167, 192115572, 192172977, 192230382, 192287787, 192345192, 192402597, 192460002, 192517407,
    192574812, 192632217, 192607146, 192582075, 192557004, 192531933, 192506863, 192481792, 192456721,
    192431650, 192406579, 192381508, 192336265, 192291022, 192245778, 192200535, 192155292, 192110048,
    192064805, 192019562, 191974318, 191929075, 191795643, 191662210, 191528778, 191395345, 191261913,
    191128480, 190995048, 190861615, 190728183, 190594750, 190473893, 190353037, 190232180, 190111323,
    189990467, 189869610, 189748753, 189627897, 189507040, 189386183, 189246166, 189106148, 188966131,
    188826113, 188686096, 188546078, 188406061, 188266043, 188126026, 187986008, 187774149, 187562290,
    187350431, 187138572, 186926713, 186714853, 186502994, 186291135, 186079276, 185867417, 185678197,
    185488977, 185299757, 185110537, 184921317, 184732097, 184542877, 184353657, 184164437, 183975217,
    183809435, 183643653, 183477872, 183312090, 183146308, 182980527, 182814745, 182648963, 182483182,
    182317400, 182170823, 182024245, 181877668, 181731090, 181584513, 181437935, 181291358, 181144780,
    180998203, 180851625, 180691691, 180531757, 180371823, 180211888, 180051954, 179892020, 179732086,
    179572152, 179412218, 179252283, 179104241, 178956198, 178808156, 178660113, 178512071, 178364028,
    178215986, 178067943, 177919901, 177771858, 177599149, 177426440, 177253731, 177081022, 176908313,
    176735603, 176562894, 176390185, 176217476, 176044767, 175874165, 175703563, 175532962, 175362360,
    175191758, 175021157, 174850555, 174679953, 174509352, 174338750, 174241704, 174144658, 174047613,
    173950567, 173853521, 173756475, 173659429, 173562383, 173465338, 173368292, 173250319, 173132347,
    173014374, 172896402, 172778429, 172660457, 172542484, 172424512, 172306539, 172188567, 172108589,
    172028612, 171948634, 171868657, 171788679, 171708702, 171628724, 171548747, 171468769, 171388792,
    154249913, 137111033, 119972154, 102833275, 85694396, 68555517, 51416638, 34277758, 17138879, 0, 0, 0,
    0, 0, 0, 0, 0, 0, 0, 0, 0, 0, 0, 0, 0, 0, 0, 0, 0, 0, 0, 0, 0, 0, 0, 0, 0, 0, 0, 0, 0, 0, 0, 0, 0, 0, 0,
    0, 0]
  len := by decide +kernel

/-- `Macbeth35` (hpp:7253-7299). -/
def Macbeth35 : Table where
  scale := 9
  m := [
    67959987, 68836284, 69712581, 70588878, 71465175, 72341473, 73217770, 74094067, 74970364, 75846661,
    76722958, 77438840, 78154722, 78870604, 79586486, 80302368, 81018249, 81734131, 82450013, 83165895,
    83881777, 84234856, 84587934, 84941013, 85294092, 85647171, 86000250, 86353329, 86706407, 87059486,
    87412565, 87559802, 87707038, 87854275, 88001511, 88148748, 88295984, 88443221, 88590457, 88737694,
    88884930, 89040721, 89196512, 89352304, 89508095, 89663886, 89819677, 89975468, 90131259, 90287051,
    90442842, 90585145, 90727448, 90869752, 91012055, 91154358, 91296662, 91438965, 91581268, 91723572,
    91865875, 91883666, 91901456, 91919247, 91937038, 91954828, 91972619, 91990410, 92008200, 92025991,
    92043782, 91974486, 91905190, 91835894, 91766598, 91697303, 91628007, 91558711, 91489415, 91420119,
    91350823, 91255008, 91159193, 91063378, 90967563, 90871748, 90775932, 90680117, 90584302, 90488487,
    90392672, 90328126, 90263581, 90199035, 90134490, 90069944, 90005399, 89940853, 89876308, 89811762,
    89747217, 89737453, 89727689, 89717925, 89708161, 89698397, 89688633, 89678869, 89669105, 89659341,
    89649577, 89665850, 89682123, 89698396, 89714669, 89730943, 89747216, 89763489, 89779762, 89796035,
    89812308, 89818988, 89825667, 89832346, 89839025, 89845704, 89852383, 89859063, 89865742, 89872421,
    89879100, 89888167, 89897234, 89906301, 89915367, 89924434, 89933501, 89942568, 89951635, 89960702,
    89969768, 89969133, 89968498, 89967863, 89967228, 89966593, 89965958, 89965323, 89964688, 89964053,
    89963418, 89968449, 89973480, 89978511, 89983542, 89988573, 89993604, 89998635, 90003666, 90008697,
    90013728, 90018559, 90023390, 90028220, 90033051, 90037882, 90042712, 90047543, 90052374, 90057204,
    90062035, 90042038, 90022041, 90002044, 89982047, 89962050, 89942053, 89922056, 89902059, 89882062,
    89862065, 89866237, 89870408, 89874580, 89878752, 89882923, 89887095, 89891267, 89895438, 89899610,
    89903782, 89864664, 89825545, 89786427, 89747309, 89708191, 89669073, 89629955, 89590836, 89551718,
    89512600, 89477832, 89443064, 89408296, 89373528, 89338760, 89303992, 89269224, 89234456, 89199688,
    89164920, 89100586, 89036251, 88971917, 88907582, 88843248, 88778913, 88714579, 88650244, 88585910,
    88521575, 88475690, 88429804, 88383919, 88338033, 88292148, 88246262, 88200377, 88154491, 88108606,
    88062720, 88005834, 87948947, 87892061, 87835175, 87778288, 87721402, 87664516, 87607629, 87550743,
    87493857, 87389368, 87284879, 87180390, 87075901, 86971413, 86866924, 86762435, 86657946, 86553457,
    86448968, 86355073, 86261178, 86167283, 86073388, 85979493, 85885597, 85791702, 85697807, 85603912,
    85510017, 85436835, 85363653, 85290471, 85217289, 85144108, 85070926, 84997744, 84924562, 84851380,
    84778198, 84720503, 84662807, 84605112, 84547416, 84489721, 84432025, 84374330, 84316634, 84258939,
    84201243, 84149172, 84097100, 84045029, 83992957, 83940886, 83888814, 83836743, 83784671, 83732600,
    83680528, 83633793, 83587058, 83540322, 83493587, 83446852, 83400116, 83353381, 83306646, 83259910,
    83213175, 83145720, 83078266, 83010811, 82943356, 82875902, 82808447, 82740992, 82673538, 82606083,
    82538628, 82461047, 82383465, 82305883, 82228302, 82150720, 82073138, 81995557, 81917975, 81840393,
    81762812, 81729338, 81695864, 81662390, 81628916, 81595443, 81561969, 81528495, 81495021, 81461547,
    81428073, 81378168, 81328263, 81278358, 81228453, 81178548, 81128642, 81078737, 81028832, 80978927,
    80929022, 80903787, 80878553, 80853319, 80828084, 80802850, 80777616, 80752381, 80727147, 80701913,
    80676678, 72609011, 64541343, 56473675, 48406007, 40338339, 32270671, 24203004, 16135336, 8067668, 0, 0,
    0, 0, 0, 0, 0, 0, 0, 0, 0, 0, 0, 0, 0, 0, 0, 0, 0, 0, 0, 0, 0, 0, 0, 0, 0, 0, 0, 0, 0, 0, 0, 0, 0, 0, 0,
    0, 0, 0]
  len := by decide +kernel

/-- `Macbeth36` (hpp:7301-7347). -/
def Macbeth36 : Table where
  scale := 9
  m := [
    31023515, 31120073, 31216632, 31313190, 31409748, 31506307, 31602865, 31699423, 31795982, 31892540,
    31989098, 32018177, 32047256, 32076335, 32105414, 32134493, 32163572, 32192651, 32221730, 32250809,
    32279888, 32307900, 32335911, 32363923, 32391934, 32419946, 32447957, 32475969, 32503980, 32531992,
    32560003, 32579362, 32598721, 32618080, 32637439, 32656798, 32676157, 32695516, 32714875, 32734234,
    32753593, 32760412, 32767230, 32774048, 32780866, 32787684, 32794502, 32801321, 32808139, 32814957,
    32821775, 32821853, 32821930, 32822008, 32822085, 32822163, 32822240, 32822318, 32822395, 32822473,
    32822550, 32802458, 32782366, 32762274, 32742181, 32722089, 32701997, 32681905, 32661813, 32641721,
    32621628, 32607820, 32594011, 32580202, 32566393, 32552584, 32538775, 32524967, 32511158, 32497349,
    32483540, 32475542, 32467544, 32459547, 32451549, 32443551, 32435553, 32427555, 32419557, 32411560,
    32403562, 32395802, 32388042, 32380282, 32372522, 32364762, 32357002, 32349242, 32341482, 32333722,
    32325962, 32324110, 32322258, 32320407, 32318555, 32316703, 32314852, 32313000, 32311148, 32309297,
    32307445, 32304859, 32302274, 32299688, 32297102, 32294517, 32291931, 32289345, 32286760, 32284174,
    32281588, 32268883, 32256177, 32243471, 32230766, 32218060, 32205354, 32192649, 32179943, 32167237,
    32154532, 32147745, 32140959, 32134173, 32127386, 32120600, 32113814, 32107027, 32100241, 32093455,
    32086668, 32076223, 32065778, 32055333, 32044888, 32034443, 32023997, 32013552, 32003107, 31992662,
    31982217, 31980094, 31977970, 31975847, 31973724, 31971601, 31969478, 31967355, 31965231, 31963108,
    31960985, 31962523, 31964060, 31965598, 31967136, 31968673, 31970211, 31971749, 31973286, 31974824,
    31976362, 31970690, 31965018, 31959346, 31953674, 31948003, 31942331, 31936659, 31930987, 31925315,
    31919643, 31922461, 31925278, 31928095, 31930913, 31933730, 31936547, 31939365, 31942182, 31944999,
    31947817, 31934769, 31921721, 31908674, 31895626, 31882578, 31869531, 31856483, 31843435, 31830388,
    31817340, 31814895, 31812450, 31810006, 31807561, 31805116, 31802671, 31800226, 31797781, 31795337,
    31792892, 31786646, 31780399, 31774153, 31767907, 31761661, 31755415, 31749169, 31742922, 31736676,
    31730430, 31742255, 31754081, 31765906, 31777731, 31789557, 31801382, 31813207, 31825033, 31836858,
    31848683, 31857231, 31865779, 31874327, 31882875, 31891423, 31899971, 31908519, 31917067, 31925615,
    31934163, 31931159, 31928154, 31925150, 31922145, 31919141, 31916136, 31913132, 31910127, 31907123,
    31904118, 31904470, 31904822, 31905174, 31905526, 31905878, 31906230, 31906582, 31906934, 31907286,
    31907638, 31910956, 31914274, 31917592, 31920910, 31924228, 31927545, 31930863, 31934181, 31937499,
    31940817, 31948264, 31955711, 31963158, 31970605, 31978053, 31985500, 31992947, 32000394, 32007841,
    32015288, 32025932, 32036576, 32047219, 32057863, 32068507, 32079150, 32089794, 32100438, 32111081,
    32121725, 32131217, 32140709, 32150201, 32159692, 32169184, 32178676, 32188168, 32197660, 32207152,
    32216643, 32217578, 32218512, 32219446, 32220380, 32221314, 32222248, 32223183, 32224117, 32225051,
    32225985, 32227669, 32229353, 32231037, 32232721, 32234405, 32236089, 32237773, 32239457, 32241141,
    32242825, 32251451, 32260077, 32268704, 32277330, 32285956, 32294582, 32303208, 32311834, 32320461,
    32329087, 32333441, 32337796, 32342151, 32346505, 32350860, 32355215, 32359569, 32363924, 32368279,
    32372633, 32385684, 32398735, 32411786, 32424837, 32437888, 32450939, 32463990, 32477041, 32490092,
    32503143, 29252829, 26002515, 22752200, 19501886, 16251572, 13001257, 9750943, 6500629, 3250314, 0, 0,
    0, 0, 0, 0, 0, 0, 0, 0, 0, 0, 0, 0, 0, 0, 0, 0, 0, 0, 0, 0, 0, 0, 0, 0, 0, 0, 0, 0, 0, 0, 0, 0, 0, 0, 0,
    0, 0, 0]
  len := by decide +kernel

/-- `Macbeth::Patch` (hpp:7350-7375), in the order of the header. -/
def Patch : List Table := [
    Macbeth01, Macbeth02, Macbeth03, Macbeth04, Macbeth05, Macbeth06, Macbeth11, Macbeth12, Macbeth13, Macbeth14, Macbeth15, Macbeth16,
    Macbeth21, Macbeth22, Macbeth23, Macbeth24, Macbeth25, Macbeth26, Macbeth31, Macbeth32, Macbeth33, Macbeth34, Macbeth35, Macbeth36]

end CS.Data.Macbeth
