import Verif.Lemmas.Locus

/-!
# `u + v` falls along the locus

`U = 4X/D`, `V = 6Y/D` with `D = -2X + 12Y + 3`; the derivative of `U + V` times `D^2` is a polynomial.
-/

namespace CS.Locus

theorem slope_all_0 (T : ℝ) (h₁ : 999 ≤ T) (h₂ : T ≤ 5499) : 0 ≤ -(4 * (X' T * (12 * Y T + 3) - 12 * X T * Y' T) + 6 * (Y' T * (3 - 2 * X T) + 2 * X' T * Y T)) - (279/50000000) * (-2 * X T + 12 * Y T + 3) ^ 2 := by
  have key : ∀ s t : ℝ, 0 ≤ s → 0 ≤ t → 0 ≤ (4658983570981062841016346708174237385238775095195551184413667/44890965856075286865234375000000000000000000000000000000000000000000000000000000000000000000000000000000000) * s ^ 0 * t ^ 12 + (3621978960604521348963637616555101177202764974305014982037167/3740913821339607238769531250000000000000000000000000000000000000000000000000000000000000000000000000000000) * s ^ 1 * t ^ 11 + (31291069223253103291284117842668433605813563014894563775517337/7481827642679214477539062500000000000000000000000000000000000000000000000000000000000000000000000000000000) * s ^ 2 * t ^ 10 + (24666431508595194580741572217127363862321031144470707072875837/2244548292803764343261718750000000000000000000000000000000000000000000000000000000000000000000000000000000) * s ^ 3 * t ^ 9 + (19448129397671509533021513071378495297949089581038604319484337/997577019023895263671875000000000000000000000000000000000000000000000000000000000000000000000000000000000) * s ^ 4 * t ^ 8 + (15316810884581011524724213735865032260352156702213077640342837/623485636889934539794921875000000000000000000000000000000000000000000000000000000000000000000000000000000) * s ^ 5 * t ^ 7 + (84381754331466498895879727732979866408309105241600081623159359/3740913821339607238769531250000000000000000000000000000000000000000000000000000000000000000000000000000000) * s ^ 6 * t ^ 6 + (9498181966411038629033753898354892382913813925952603504809837/623485636889934539794921875000000000000000000000000000000000000000000000000000000000000000000000000000000) * s ^ 7 * t ^ 5 + (7516131982853123423428254209302957856214772707452612798418337/997577019023895263671875000000000000000000000000000000000000000000000000000000000000000000000000000000000) * s ^ 8 * t ^ 4 + (5995896460322583190115181742391468292848529655616611666276837/2244548292803764343261718750000000000000000000000000000000000000000000000000000000000000000000000000000000) * s ^ 9 * t ^ 3 + (4838051083136574419644809903394441055543238319327234733385337/7481827642679214477539062500000000000000000000000000000000000000000000000000000000000000000000000000000000) * s ^ 10 * t ^ 2 + (359498208027521081069206860359791524655208547517220829522167/3740913821339607238769531250000000000000000000000000000000000000000000000000000000000000000000000000000000) * s ^ 11 * t ^ 1 + (297240140579339497258326355618952525374134509710154951395667/44890965856075286865234375000000000000000000000000000000000000000000000000000000000000000000000000000000000) * s ^ 12 * t ^ 0 := by
    intro s t hs ht; positivity
  have h := key (T - 999) (5499 - T) (by linarith) (by linarith)
  have e : -(4 * (X' T * (12 * Y T + 3) - 12 * X T * Y' T) + 6 * (Y' T * (3 - 2 * X T) + 2 * X' T * Y T)) - (279/50000000) * (-2 * X T + 12 * Y T + 3) ^ 2 = 0 + ((4658983570981062841016346708174237385238775095195551184413667/44890965856075286865234375000000000000000000000000000000000000000000000000000000000000000000000000000000000) * (T - 999) ^ 0 * (5499 - T) ^ 12 + (3621978960604521348963637616555101177202764974305014982037167/3740913821339607238769531250000000000000000000000000000000000000000000000000000000000000000000000000000000) * (T - 999) ^ 1 * (5499 - T) ^ 11 + (31291069223253103291284117842668433605813563014894563775517337/7481827642679214477539062500000000000000000000000000000000000000000000000000000000000000000000000000000000) * (T - 999) ^ 2 * (5499 - T) ^ 10 + (24666431508595194580741572217127363862321031144470707072875837/2244548292803764343261718750000000000000000000000000000000000000000000000000000000000000000000000000000000) * (T - 999) ^ 3 * (5499 - T) ^ 9 + (19448129397671509533021513071378495297949089581038604319484337/997577019023895263671875000000000000000000000000000000000000000000000000000000000000000000000000000000000) * (T - 999) ^ 4 * (5499 - T) ^ 8 + (15316810884581011524724213735865032260352156702213077640342837/623485636889934539794921875000000000000000000000000000000000000000000000000000000000000000000000000000000) * (T - 999) ^ 5 * (5499 - T) ^ 7 + (84381754331466498895879727732979866408309105241600081623159359/3740913821339607238769531250000000000000000000000000000000000000000000000000000000000000000000000000000000) * (T - 999) ^ 6 * (5499 - T) ^ 6 + (9498181966411038629033753898354892382913813925952603504809837/623485636889934539794921875000000000000000000000000000000000000000000000000000000000000000000000000000000) * (T - 999) ^ 7 * (5499 - T) ^ 5 + (7516131982853123423428254209302957856214772707452612798418337/997577019023895263671875000000000000000000000000000000000000000000000000000000000000000000000000000000000) * (T - 999) ^ 8 * (5499 - T) ^ 4 + (5995896460322583190115181742391468292848529655616611666276837/2244548292803764343261718750000000000000000000000000000000000000000000000000000000000000000000000000000000) * (T - 999) ^ 9 * (5499 - T) ^ 3 + (4838051083136574419644809903394441055543238319327234733385337/7481827642679214477539062500000000000000000000000000000000000000000000000000000000000000000000000000000000) * (T - 999) ^ 10 * (5499 - T) ^ 2 + (359498208027521081069206860359791524655208547517220829522167/3740913821339607238769531250000000000000000000000000000000000000000000000000000000000000000000000000000000) * (T - 999) ^ 11 * (5499 - T) ^ 1 + (297240140579339497258326355618952525374134509710154951395667/44890965856075286865234375000000000000000000000000000000000000000000000000000000000000000000000000000000000) * (T - 999) ^ 12 * (5499 - T) ^ 0) := by
    simp only [X', Y', X_eq, Y_eq]; ring
  linarith

theorem slope_all_1 (T : ℝ) (h₁ : 5499 ≤ T) (h₂ : T ≤ 7749) : 0 ≤ -(4 * (X' T * (12 * Y T + 3) - 12 * X T * Y' T) + 6 * (Y' T * (3 - 2 * X T) + 2 * X' T * Y T)) - (279/50000000) * (-2 * X T + 12 * Y T + 3) ^ 2 := by
  have key : ∀ s t : ℝ, 0 ≤ s → 0 ≤ t → 0 ≤ (297240140579339497258326355618952525374134509710154951395667/10959708460955880582332611083984375000000000000000000000000000000000000000000000000000000000000000000000) * s ^ 0 * t ^ 12 + (266111106855248705352886103248533025733597490806622012332417/913309038412990048527717590332031250000000000000000000000000000000000000000000000000000000000000000000) * s ^ 1 * t ^ 11 + (2634485817668698324412866581481125110084697661124000043273337/1826618076825980097055435180664062500000000000000000000000000000000000000000000000000000000000000000000) * s ^ 2 * t ^ 10 + (2381989656974582024357074685016164802570203248703741891327587/547985423047794029116630554199218750000000000000000000000000000000000000000000000000000000000000000000) * s ^ 3 * t ^ 9 + (2161076691740849471863552552059970259958336236563354039194337/243549076910130679607391357421875000000000000000000000000000000000000000000000000000000000000000000000) * s ^ 4 * t ^ 8 + (1963915243756139966384755062782664752710059973897509564998587/152218173068831674754619598388671875000000000000000000000000000000000000000000000000000000000000000000) * s ^ 5 * t ^ 7 + (12485099705304071242298502207309944228071534449272573171807359/913309038412990048527717590332031250000000000000000000000000000000000000000000000000000000000000000000) * s ^ 6 * t ^ 6 + (1614204274953743599780694159033425206118129747867889156669587/152218173068831674754619598388671875000000000000000000000000000000000000000000000000000000000000000000) * s ^ 7 * t ^ 5 + (1451077235098434679720072444643289101251305517326213285036337/243549076910130679607391357421875000000000000000000000000000000000000000000000000000000000000000000000) * s ^ 8 * t ^ 4 + (1290876732982219282295672674722757914363357937180624666340587/547985423047794029116630554199218750000000000000000000000000000000000000000000000000000000000000000000) * s ^ 9 * t ^ 3 + (1131830242204920485597964258557937969549310284781206534957337/1826618076825980097055435180664062500000000000000000000000000000000000000000000000000000000000000000000) * s ^ 10 * t ^ 2 + (88537780031768625057546748934627216011838083413950917637417/913309038412990048527717590332031250000000000000000000000000000000000000000000000000000000000000000000) * s ^ 11 * t ^ 1 + (74460114963174662136752543573481314192384120875112200261667/10959708460955880582332611083984375000000000000000000000000000000000000000000000000000000000000000000000) * s ^ 12 * t ^ 0 := by
    intro s t hs ht; positivity
  have h := key (T - 5499) (7749 - T) (by linarith) (by linarith)
  have e : -(4 * (X' T * (12 * Y T + 3) - 12 * X T * Y' T) + 6 * (Y' T * (3 - 2 * X T) + 2 * X' T * Y T)) - (279/50000000) * (-2 * X T + 12 * Y T + 3) ^ 2 = 0 + ((297240140579339497258326355618952525374134509710154951395667/10959708460955880582332611083984375000000000000000000000000000000000000000000000000000000000000000000000) * (T - 5499) ^ 0 * (7749 - T) ^ 12 + (266111106855248705352886103248533025733597490806622012332417/913309038412990048527717590332031250000000000000000000000000000000000000000000000000000000000000000000) * (T - 5499) ^ 1 * (7749 - T) ^ 11 + (2634485817668698324412866581481125110084697661124000043273337/1826618076825980097055435180664062500000000000000000000000000000000000000000000000000000000000000000000) * (T - 5499) ^ 2 * (7749 - T) ^ 10 + (2381989656974582024357074685016164802570203248703741891327587/547985423047794029116630554199218750000000000000000000000000000000000000000000000000000000000000000000) * (T - 5499) ^ 3 * (7749 - T) ^ 9 + (2161076691740849471863552552059970259958336236563354039194337/243549076910130679607391357421875000000000000000000000000000000000000000000000000000000000000000000000) * (T - 5499) ^ 4 * (7749 - T) ^ 8 + (1963915243756139966384755062782664752710059973897509564998587/152218173068831674754619598388671875000000000000000000000000000000000000000000000000000000000000000000) * (T - 5499) ^ 5 * (7749 - T) ^ 7 + (12485099705304071242298502207309944228071534449272573171807359/913309038412990048527717590332031250000000000000000000000000000000000000000000000000000000000000000000) * (T - 5499) ^ 6 * (7749 - T) ^ 6 + (1614204274953743599780694159033425206118129747867889156669587/152218173068831674754619598388671875000000000000000000000000000000000000000000000000000000000000000000) * (T - 5499) ^ 7 * (7749 - T) ^ 5 + (1451077235098434679720072444643289101251305517326213285036337/243549076910130679607391357421875000000000000000000000000000000000000000000000000000000000000000000000) * (T - 5499) ^ 8 * (7749 - T) ^ 4 + (1290876732982219282295672674722757914363357937180624666340587/547985423047794029116630554199218750000000000000000000000000000000000000000000000000000000000000000000) * (T - 5499) ^ 9 * (7749 - T) ^ 3 + (1131830242204920485597964258557937969549310284781206534957337/1826618076825980097055435180664062500000000000000000000000000000000000000000000000000000000000000000000) * (T - 5499) ^ 10 * (7749 - T) ^ 2 + (88537780031768625057546748934627216011838083413950917637417/913309038412990048527717590332031250000000000000000000000000000000000000000000000000000000000000000000) * (T - 5499) ^ 11 * (7749 - T) ^ 1 + (74460114963174662136752543573481314192384120875112200261667/10959708460955880582332611083984375000000000000000000000000000000000000000000000000000000000000000000000) * (T - 5499) ^ 12 * (7749 - T) ^ 0) := by
    simp only [X', Y', X_eq, Y_eq]; ring
  linarith

theorem slope_all_2 (T : ℝ) (h₁ : 7749 ≤ T) (h₂ : T ≤ 8874) : 0 ≤ -(4 * (X' T * (12 * Y T + 3) - 12 * X T * Y' T) + 6 * (Y' T * (3 - 2 * X T) + 2 * X' T * Y T)) - (279/50000000) * (-2 * X T + 12 * Y T + 3) ^ 2 := by
  have key : ∀ s t : ℝ, 0 ≤ s → 0 ≤ t → 0 ≤ (74460114963174662136752543573481314192384120875112200261667/2675710073475556782796047627925872802734375000000000000000000000000000000000000000000000000000000000) * s ^ 0 * t ^ 12 + (2106915075902427521136107527903386352583035612677901299181/6967994983009262455198040697723627090454101562500000000000000000000000000000000000000000000000000) * s ^ 1 * t ^ 11 + (166243008841405173958648790165449488613376546631034612299553/111487919728148199283168651163578033447265625000000000000000000000000000000000000000000000000000000) * s ^ 2 * t ^ 10 + (18416128599568976955508307265774808481260186530527871436241/4180796989805557473118824418634176254272460937500000000000000000000000000000000000000000000000000) * s ^ 3 * t ^ 9 + (32189333096972683241965034764584229718376461926934181470857/3716263990938273309438955038785934448242187500000000000000000000000000000000000000000000000000000) * s ^ 4 * t ^ 8 + (432229337569830919220855226573555184990451325888623895613/36291640536506575287489795300643891096115112304687500000000000000000000000000000000000000000000) * s ^ 5 * t ^ 7 + (40759943283828086413630375843655190536900745640783655430031/3483997491504631227599020348861813545227050781250000000000000000000000000000000000000000000000000) * s ^ 6 * t ^ 6 + (597606356611045762698240311762805712606048978406586829601/72583281073013150574979590601287782192230224609375000000000000000000000000000000000000000000000) * s ^ 7 * t ^ 5 + (950989443796041285526429756374952368743487113382702822577/232266499433642081839934689924120903015136718750000000000000000000000000000000000000000000000000) * s ^ 8 * t ^ 4 + (22725481026892257886262475962073975545964176305406718311/16331238241427958879370407885289750993251800537109375000000000000000000000000000000000000000000) * s ^ 9 * t ^ 3 + (132173232416935889306101837994366941475263140621817088113/435499686438078903449877543607726693153381347656250000000000000000000000000000000000000000000000) * s ^ 10 * t ^ 2 + (1025235396415715686198960969357247611199061530342263051/27218730402379931465617346475482918322086334228515625000000000000000000000000000000000000000000) * s ^ 11 * t ^ 1 + (1306455987825353203750236826528135118755313605879833227/653249529657118355174816315411590039730072021484375000000000000000000000000000000000000000000000) * s ^ 12 * t ^ 0 := by
    intro s t hs ht; positivity
  have h := key (T - 7749) (8874 - T) (by linarith) (by linarith)
  have e : -(4 * (X' T * (12 * Y T + 3) - 12 * X T * Y' T) + 6 * (Y' T * (3 - 2 * X T) + 2 * X' T * Y T)) - (279/50000000) * (-2 * X T + 12 * Y T + 3) ^ 2 = 0 + ((74460114963174662136752543573481314192384120875112200261667/2675710073475556782796047627925872802734375000000000000000000000000000000000000000000000000000000000) * (T - 7749) ^ 0 * (8874 - T) ^ 12 + (2106915075902427521136107527903386352583035612677901299181/6967994983009262455198040697723627090454101562500000000000000000000000000000000000000000000000000) * (T - 7749) ^ 1 * (8874 - T) ^ 11 + (166243008841405173958648790165449488613376546631034612299553/111487919728148199283168651163578033447265625000000000000000000000000000000000000000000000000000000) * (T - 7749) ^ 2 * (8874 - T) ^ 10 + (18416128599568976955508307265774808481260186530527871436241/4180796989805557473118824418634176254272460937500000000000000000000000000000000000000000000000000) * (T - 7749) ^ 3 * (8874 - T) ^ 9 + (32189333096972683241965034764584229718376461926934181470857/3716263990938273309438955038785934448242187500000000000000000000000000000000000000000000000000000) * (T - 7749) ^ 4 * (8874 - T) ^ 8 + (432229337569830919220855226573555184990451325888623895613/36291640536506575287489795300643891096115112304687500000000000000000000000000000000000000000000) * (T - 7749) ^ 5 * (8874 - T) ^ 7 + (40759943283828086413630375843655190536900745640783655430031/3483997491504631227599020348861813545227050781250000000000000000000000000000000000000000000000000) * (T - 7749) ^ 6 * (8874 - T) ^ 6 + (597606356611045762698240311762805712606048978406586829601/72583281073013150574979590601287782192230224609375000000000000000000000000000000000000000000000) * (T - 7749) ^ 7 * (8874 - T) ^ 5 + (950989443796041285526429756374952368743487113382702822577/232266499433642081839934689924120903015136718750000000000000000000000000000000000000000000000000) * (T - 7749) ^ 8 * (8874 - T) ^ 4 + (22725481026892257886262475962073975545964176305406718311/16331238241427958879370407885289750993251800537109375000000000000000000000000000000000000000000) * (T - 7749) ^ 9 * (8874 - T) ^ 3 + (132173232416935889306101837994366941475263140621817088113/435499686438078903449877543607726693153381347656250000000000000000000000000000000000000000000000) * (T - 7749) ^ 10 * (8874 - T) ^ 2 + (1025235396415715686198960969357247611199061530342263051/27218730402379931465617346475482918322086334228515625000000000000000000000000000000000000000000) * (T - 7749) ^ 11 * (8874 - T) ^ 1 + (1306455987825353203750236826528135118755313605879833227/653249529657118355174816315411590039730072021484375000000000000000000000000000000000000000000000) * (T - 7749) ^ 12 * (8874 - T) ^ 0) := by
    simp only [X', Y', X_eq, Y_eq]; ring
  linarith

theorem slope_all_3 (T : ℝ) (h₁ : 8874 ≤ T) (h₂ : T ≤ 9155) : 0 ≤ -(4 * (X' T * (12 * Y T + 3) - 12 * X T * Y' T) + 6 * (Y' T * (3 - 2 * X T) + 2 * X' T * Y T)) - (279/50000000) * (-2 * X T + 12 * Y T + 3) ^ 2 := by
  have key : ∀ s t : ℝ, 0 ≤ s → 0 ≤ t → 0 ≤ (3919367963476059611250710479584405356265940817639499681/115570217316158741090995510941028594970703125000000000000000000000000000000000000000000000) * s ^ 0 * t ^ 12 + (504277930438725755531606765327913927790439339925877473/1444627716451984263637443886762857437133789062500000000000000000000000000000000000000000) * s ^ 1 * t ^ 11 + (15013891972447757857401848184608527224233718860008338537/9245617385292699287279640875282287597656250000000000000000000000000000000000000000000000) * s ^ 2 * t ^ 10 + (416427206942743659813360189150507798725832127440259563/92456173852926992872796408752822875976562500000000000000000000000000000000000000000000) * s ^ 3 * t ^ 9 + (4894187792180193800414399939256851401983621595964496459/591719512658732754385897016018066406250000000000000000000000000000000000000000000000000) * s ^ 4 * t ^ 8 + (195197528446785520442014298135482783957231841693686299/18491234770585398574559281750564575195312500000000000000000000000000000000000000000000) * s ^ 5 * t ^ 7 + (1131324420026066673826819715321069439944502593749022199/118343902531746550877179403203613281250000000000000000000000000000000000000000000000000) * s ^ 6 * t ^ 6 + (36447187484404860930133194112265980566667523352539787/5917195126587327543858970160180664062500000000000000000000000000000000000000000000000) * s ^ 7 * t ^ 5 + (42279253813516842327285204414514059988042715957470899/15148019524063558512278963610062500000000000000000000000000000000000000000000000000000) * s ^ 8 * t ^ 4 + (164400879209109475799012749900542833111846614254321/189350244050794481403487045125781250000000000000000000000000000000000000000000000000) * s ^ 9 * t ^ 3 + (1087027623435546537095849665257508598009995316303577/6059207809625423404911585444025000000000000000000000000000000000000000000000000000000) * s ^ 10 * t ^ 2 + (7165511258009840969990821822876719318954530446779/302960390481271170245579272201250000000000000000000000000000000000000000000000000000) * s ^ 11 * t ^ 1 + (3340285448491759191666986238272039315389887620361/1938946499080135489571707342088000000000000000000000000000000000000000000000000000000) * s ^ 12 * t ^ 0 := by
    intro s t hs ht; positivity
  have h := key (T - 8874) (9155 - T) (by linarith) (by linarith)
  have e : -(4 * (X' T * (12 * Y T + 3) - 12 * X T * Y' T) + 6 * (Y' T * (3 - 2 * X T) + 2 * X' T * Y T)) - (279/50000000) * (-2 * X T + 12 * Y T + 3) ^ 2 = 0 + ((3919367963476059611250710479584405356265940817639499681/115570217316158741090995510941028594970703125000000000000000000000000000000000000000000000) * (T - 8874) ^ 0 * (9155 - T) ^ 12 + (504277930438725755531606765327913927790439339925877473/1444627716451984263637443886762857437133789062500000000000000000000000000000000000000000) * (T - 8874) ^ 1 * (9155 - T) ^ 11 + (15013891972447757857401848184608527224233718860008338537/9245617385292699287279640875282287597656250000000000000000000000000000000000000000000000) * (T - 8874) ^ 2 * (9155 - T) ^ 10 + (416427206942743659813360189150507798725832127440259563/92456173852926992872796408752822875976562500000000000000000000000000000000000000000000) * (T - 8874) ^ 3 * (9155 - T) ^ 9 + (4894187792180193800414399939256851401983621595964496459/591719512658732754385897016018066406250000000000000000000000000000000000000000000000000) * (T - 8874) ^ 4 * (9155 - T) ^ 8 + (195197528446785520442014298135482783957231841693686299/18491234770585398574559281750564575195312500000000000000000000000000000000000000000000) * (T - 8874) ^ 5 * (9155 - T) ^ 7 + (1131324420026066673826819715321069439944502593749022199/118343902531746550877179403203613281250000000000000000000000000000000000000000000000000) * (T - 8874) ^ 6 * (9155 - T) ^ 6 + (36447187484404860930133194112265980566667523352539787/5917195126587327543858970160180664062500000000000000000000000000000000000000000000000) * (T - 8874) ^ 7 * (9155 - T) ^ 5 + (42279253813516842327285204414514059988042715957470899/15148019524063558512278963610062500000000000000000000000000000000000000000000000000000) * (T - 8874) ^ 8 * (9155 - T) ^ 4 + (164400879209109475799012749900542833111846614254321/189350244050794481403487045125781250000000000000000000000000000000000000000000000000) * (T - 8874) ^ 9 * (9155 - T) ^ 3 + (1087027623435546537095849665257508598009995316303577/6059207809625423404911585444025000000000000000000000000000000000000000000000000000000) * (T - 8874) ^ 10 * (9155 - T) ^ 2 + (7165511258009840969990821822876719318954530446779/302960390481271170245579272201250000000000000000000000000000000000000000000000000000) * (T - 8874) ^ 11 * (9155 - T) ^ 1 + (3340285448491759191666986238272039315389887620361/1938946499080135489571707342088000000000000000000000000000000000000000000000000000000) * (T - 8874) ^ 12 * (9155 - T) ^ 0) := by
    simp only [X', Y', X_eq, Y_eq]; ring
  linarith

theorem slope_all_4 (T : ℝ) (h₁ : 9155 ≤ T) (h₂ : T ≤ 10000) : 0 ≤ -(4 * (X' T * (12 * Y T + 3) - 12 * X T * Y' T) + 6 * (Y' T * (3 - 2 * X T) + 2 * X' T * Y T)) - (279/50000000) * (-2 * X T + 12 * Y T + 3) ^ 2 := by
  have key : ∀ s t : ℝ, 0 ≤ s → 0 ≤ t → 0 ≤ (3340285448491759191666986238272039315389887620361/1060157754637442407757022189453125000000000000000000000000000000000000000000000000000000000) * s ^ 0 * t ^ 12 + (22714776144852064882896632147382552144633668577/1060157754637442407757022189453125000000000000000000000000000000000000000000000000000000) * s ^ 1 * t ^ 11 + (2427340179381819244825676793642085506421682169/4240631018549769631028088757812500000000000000000000000000000000000000000000000000000) * s ^ 2 * t ^ 10 + (2880638863152162337242511246559827424203491/530078877318721203878511094726562500000000000000000000000000000000000000000000000) * s ^ 3 * t ^ 9 + (133363262920289673220119446984947816911429/5300788773187212038785110947265625000000000000000000000000000000000000000000000) * s ^ 4 * t ^ 8 + (369735662060625892425310340752118997249/5300788773187212038785110947265625000000000000000000000000000000000000000000) * s ^ 5 * t ^ 7 + (84197281507115826727008839778964953603/662598596648401504848138868408203125000000000000000000000000000000000000000) * s ^ 6 * t ^ 6 + (105140893488090243125413268444091123/662598596648401504848138868408203125000000000000000000000000000000000000) * s ^ 7 * t ^ 5 + (18223052507671168915759861315881/132519719329680300969627773681640625000000000000000000000000000000000) * s ^ 8 * t ^ 4 + (27054720134363149891636012419/331299298324200752424069434204101562500000000000000000000000000000) * s ^ 9 * t ^ 3 + (52689243513538553630457153/1656496491621003762120347171020507812500000000000000000000000000) * s ^ 10 * t ^ 2 + (303895265762718132141/41412412290525094053008679275512695312500000000000000000000) * s ^ 11 * t ^ 1 + (315376364544889894161/414124122905250940530086792755126953125000000000000000000000) * s ^ 12 * t ^ 0 := by
    intro s t hs ht; positivity
  have h := key (T - 9155) (10000 - T) (by linarith) (by linarith)
  have e : -(4 * (X' T * (12 * Y T + 3) - 12 * X T * Y' T) + 6 * (Y' T * (3 - 2 * X T) + 2 * X' T * Y T)) - (279/50000000) * (-2 * X T + 12 * Y T + 3) ^ 2 = 0 + ((3340285448491759191666986238272039315389887620361/1060157754637442407757022189453125000000000000000000000000000000000000000000000000000000000) * (T - 9155) ^ 0 * (10000 - T) ^ 12 + (22714776144852064882896632147382552144633668577/1060157754637442407757022189453125000000000000000000000000000000000000000000000000000000) * (T - 9155) ^ 1 * (10000 - T) ^ 11 + (2427340179381819244825676793642085506421682169/4240631018549769631028088757812500000000000000000000000000000000000000000000000000000) * (T - 9155) ^ 2 * (10000 - T) ^ 10 + (2880638863152162337242511246559827424203491/530078877318721203878511094726562500000000000000000000000000000000000000000000000) * (T - 9155) ^ 3 * (10000 - T) ^ 9 + (133363262920289673220119446984947816911429/5300788773187212038785110947265625000000000000000000000000000000000000000000000) * (T - 9155) ^ 4 * (10000 - T) ^ 8 + (369735662060625892425310340752118997249/5300788773187212038785110947265625000000000000000000000000000000000000000000) * (T - 9155) ^ 5 * (10000 - T) ^ 7 + (84197281507115826727008839778964953603/662598596648401504848138868408203125000000000000000000000000000000000000000) * (T - 9155) ^ 6 * (10000 - T) ^ 6 + (105140893488090243125413268444091123/662598596648401504848138868408203125000000000000000000000000000000000000) * (T - 9155) ^ 7 * (10000 - T) ^ 5 + (18223052507671168915759861315881/132519719329680300969627773681640625000000000000000000000000000000000) * (T - 9155) ^ 8 * (10000 - T) ^ 4 + (27054720134363149891636012419/331299298324200752424069434204101562500000000000000000000000000000) * (T - 9155) ^ 9 * (10000 - T) ^ 3 + (52689243513538553630457153/1656496491621003762120347171020507812500000000000000000000000000) * (T - 9155) ^ 10 * (10000 - T) ^ 2 + (303895265762718132141/41412412290525094053008679275512695312500000000000000000000) * (T - 9155) ^ 11 * (10000 - T) ^ 1 + (315376364544889894161/414124122905250940530086792755126953125000000000000000000000) * (T - 9155) ^ 12 * (10000 - T) ^ 0) := by
    simp only [X', Y', X_eq, Y_eq]; ring
  linarith

theorem slope_all (T : ℝ) (h₁ : 999 ≤ T) (h₂ : T ≤ 10000) : 0 ≤ -(4 * (X' T * (12 * Y T + 3) - 12 * X T * Y' T) + 6 * (Y' T * (3 - 2 * X T) + 2 * X' T * Y T)) - (279/50000000) * (-2 * X T + 12 * Y T + 3) ^ 2 := by
  rcases le_total T 5499 with h | h
  · exact slope_all_0 T (by linarith) h
  rcases le_total T 7749 with h | h
  · exact slope_all_1 T (by linarith) h
  rcases le_total T 8874 with h | h
  · exact slope_all_2 T (by linarith) h
  rcases le_total T 9155 with h | h
  · exact slope_all_3 T (by linarith) h
  exact slope_all_4 T (by linarith) h₂

theorem slope_mid_0 (T : ℝ) (h₁ : 999 ≤ T) (h₂ : T ≤ 6600) : 0 ≤ -(4 * (X' T * (12 * Y T + 3) - 12 * X T * Y' T) + 6 * (Y' T * (3 - 2 * X T) + 2 * X' T * Y T)) - (3/250000) * (-2 * X T + 12 * Y T + 3) ^ 2 := by
  have key : ∀ s t : ℝ, 0 ≤ s → 0 ≤ t → 0 ≤ (22577904825504321732979964079905342889256415178199273488319/3102884862306003071780154979658385773404385419921875000000000000000000000000000000000000000000000000000000) * s ^ 0 * t ^ 12 + (106161797435744383971249726971943210151636458852102915139/1723824923503335039877863877587992096335769677734375000000000000000000000000000000000000000000000000000) * s ^ 1 * t ^ 11 + (24981962751680134099006363046797449338163826506804591233/103429495410200102392671832655279525780146180664062500000000000000000000000000000000000000000000000000) * s ^ 2 * t ^ 10 + (88798657673643256152408692303666317392110048477246261/155144243115300153589007748982919288670219270996093750000000000000000000000000000000000000000000000) * s ^ 3 * t ^ 9 + (52005974995266851390153868828630726944649159260777/57460830783444501329262129252933069877858989257812500000000000000000000000000000000000000000000) * s ^ 4 * t ^ 8 + (1078334374034338576972049526050401068791986051579/1077390577189584399923664923492495060209856048583984375000000000000000000000000000000000000000) * s ^ 5 * t ^ 7 + (25581038259293207208321013496974454900477545201/32321717315687531997709947704774851806295681457519531250000000000000000000000000000000000000) * s ^ 6 * t ^ 6 + (149877432231068117958953317535737050770851/332527955922711234544341025769288598830202484130859375000000000000000000000000000000000) * s ^ 7 * t ^ 5 + (4942795507177673141305741281653878884319/26934764429739609998091623087312376505246401214599609375000000000000000000000000000000) * s ^ 8 * t ^ 4 + (15670360377841014121717063495181073823/303016099834570612478530759732264235684022013664245605468750000000000000000000000000) * s ^ 9 * t ^ 3 + (124024494510807976404616667883319151/13467382214869804999045811543656188252623200607299804687500000000000000000000000000) * s ^ 10 * t ^ 2 + (80463790335952030886035291805591/101005366611523537492843586577421411894674004554748535156250000000000000000000000) * s ^ 11 * t ^ 1 + (13657448203527572932905766261/3030160998345706124785307597322642356840220136642456054687500000000000000000000) * s ^ 12 * t ^ 0 := by
    intro s t hs ht; positivity
  have h := key (T - 999) (6600 - T) (by linarith) (by linarith)
  have e : -(4 * (X' T * (12 * Y T + 3) - 12 * X T * Y' T) + 6 * (Y' T * (3 - 2 * X T) + 2 * X' T * Y T)) - (3/250000) * (-2 * X T + 12 * Y T + 3) ^ 2 = 0 + ((22577904825504321732979964079905342889256415178199273488319/3102884862306003071780154979658385773404385419921875000000000000000000000000000000000000000000000000000000) * (T - 999) ^ 0 * (6600 - T) ^ 12 + (106161797435744383971249726971943210151636458852102915139/1723824923503335039877863877587992096335769677734375000000000000000000000000000000000000000000000000000) * (T - 999) ^ 1 * (6600 - T) ^ 11 + (24981962751680134099006363046797449338163826506804591233/103429495410200102392671832655279525780146180664062500000000000000000000000000000000000000000000000000) * (T - 999) ^ 2 * (6600 - T) ^ 10 + (88798657673643256152408692303666317392110048477246261/155144243115300153589007748982919288670219270996093750000000000000000000000000000000000000000000000) * (T - 999) ^ 3 * (6600 - T) ^ 9 + (52005974995266851390153868828630726944649159260777/57460830783444501329262129252933069877858989257812500000000000000000000000000000000000000000000) * (T - 999) ^ 4 * (6600 - T) ^ 8 + (1078334374034338576972049526050401068791986051579/1077390577189584399923664923492495060209856048583984375000000000000000000000000000000000000000) * (T - 999) ^ 5 * (6600 - T) ^ 7 + (25581038259293207208321013496974454900477545201/32321717315687531997709947704774851806295681457519531250000000000000000000000000000000000000) * (T - 999) ^ 6 * (6600 - T) ^ 6 + (149877432231068117958953317535737050770851/332527955922711234544341025769288598830202484130859375000000000000000000000000000000000) * (T - 999) ^ 7 * (6600 - T) ^ 5 + (4942795507177673141305741281653878884319/26934764429739609998091623087312376505246401214599609375000000000000000000000000000000) * (T - 999) ^ 8 * (6600 - T) ^ 4 + (15670360377841014121717063495181073823/303016099834570612478530759732264235684022013664245605468750000000000000000000000000) * (T - 999) ^ 9 * (6600 - T) ^ 3 + (124024494510807976404616667883319151/13467382214869804999045811543656188252623200607299804687500000000000000000000000000) * (T - 999) ^ 10 * (6600 - T) ^ 2 + (80463790335952030886035291805591/101005366611523537492843586577421411894674004554748535156250000000000000000000000) * (T - 999) ^ 11 * (6600 - T) ^ 1 + (13657448203527572932905766261/3030160998345706124785307597322642356840220136642456054687500000000000000000000) * (T - 999) ^ 12 * (6600 - T) ^ 0) := by
    simp only [X', Y', X_eq, Y_eq]; ring
  linarith

theorem slope_mid (T : ℝ) (h₁ : 999 ≤ T) (h₂ : T ≤ 6600) : 0 ≤ -(4 * (X' T * (12 * Y T + 3) - 12 * X T * Y' T) + 6 * (Y' T * (3 - 2 * X T) + 2 * X' T * Y T)) - (3/250000) * (-2 * X T + 12 * Y T + 3) ^ 2 := by
  exact slope_mid_0 T (by linarith) h₂

theorem slope_low_0 (T : ℝ) (h₁ : 999 ≤ T) (h₂ : T ≤ 4000) : 0 ≤ -(4 * (X' T * (12 * Y T + 3) - 12 * X T * Y' T) + 6 * (Y' T * (3 - 2 * X T) + 2 * X' T * Y T)) - (29/1000000) * (-2 * X T + 12 * Y T + 3) ^ 2 := by
  have key : ∀ s t : ℝ, 0 ≤ s → 0 ≤ t → 0 ≤ (248151266317609109345796801040323276114185720339822681161251/20842604123730837022569863128942991954531289062500000000000000000000000000000000000000000000000000000000) * s ^ 0 * t ^ 12 + (2423592536308628452491576963696350226760431628840110341487/20842604123730837022569863128942991954531289062500000000000000000000000000000000000000000000000000000) * s ^ 1 * t ^ 11 + (43199003246238466640275058206270991304970389803471663539/83370416494923348090279452515771967818125156250000000000000000000000000000000000000000000000000000) * s ^ 2 * t ^ 10 + (5797327454639269429019755089488476165813715940172719/4168520824746167404513972625788598390906257812500000000000000000000000000000000000000000000000) * s ^ 3 * t ^ 9 + (5207616811023557202916798342303115847939911372087/2084260412373083702256986312894299195453128906250000000000000000000000000000000000000000000) * s ^ 4 * t ^ 8 + (65774949607798019552980122102426836182690270667/20842604123730837022569863128942991954531289062500000000000000000000000000000000000000000) * s ^ 5 * t ^ 7 + (59635962723165175595820054319269662434098199/20842604123730837022569863128942991954531289062500000000000000000000000000000000000000) * s ^ 6 * t ^ 6 + (38863134259281181478773187916564658783317/20842604123730837022569863128942991954531289062500000000000000000000000000000000000) * s ^ 7 * t ^ 5 + (3577491357400975183370728808611544999/4168520824746167404513972625788598390906257812500000000000000000000000000000000) * s ^ 8 * t ^ 4 + (557283847803610127480909867473897/2084260412373083702256986312894299195453128906250000000000000000000000000000) * s ^ 9 * t ^ 3 + (538348356265870106214213041783/10421302061865418511284931564471495977265644531250000000000000000000000000) * s ^ 10 * t ^ 2 + (13197054280218708573640539/2605325515466354627821232891117873994316411132812500000000000000000000) * s ^ 11 * t ^ 1 + (2542151450748241858051/20842604123730837022569863128942991954531289062500000000000000000000) * s ^ 12 * t ^ 0 := by
    intro s t hs ht; positivity
  have h := key (T - 999) (4000 - T) (by linarith) (by linarith)
  have e : -(4 * (X' T * (12 * Y T + 3) - 12 * X T * Y' T) + 6 * (Y' T * (3 - 2 * X T) + 2 * X' T * Y T)) - (29/1000000) * (-2 * X T + 12 * Y T + 3) ^ 2 = 0 + ((248151266317609109345796801040323276114185720339822681161251/20842604123730837022569863128942991954531289062500000000000000000000000000000000000000000000000000000000) * (T - 999) ^ 0 * (4000 - T) ^ 12 + (2423592536308628452491576963696350226760431628840110341487/20842604123730837022569863128942991954531289062500000000000000000000000000000000000000000000000000000) * (T - 999) ^ 1 * (4000 - T) ^ 11 + (43199003246238466640275058206270991304970389803471663539/83370416494923348090279452515771967818125156250000000000000000000000000000000000000000000000000000) * (T - 999) ^ 2 * (4000 - T) ^ 10 + (5797327454639269429019755089488476165813715940172719/4168520824746167404513972625788598390906257812500000000000000000000000000000000000000000000000) * (T - 999) ^ 3 * (4000 - T) ^ 9 + (5207616811023557202916798342303115847939911372087/2084260412373083702256986312894299195453128906250000000000000000000000000000000000000000000) * (T - 999) ^ 4 * (4000 - T) ^ 8 + (65774949607798019552980122102426836182690270667/20842604123730837022569863128942991954531289062500000000000000000000000000000000000000000) * (T - 999) ^ 5 * (4000 - T) ^ 7 + (59635962723165175595820054319269662434098199/20842604123730837022569863128942991954531289062500000000000000000000000000000000000000) * (T - 999) ^ 6 * (4000 - T) ^ 6 + (38863134259281181478773187916564658783317/20842604123730837022569863128942991954531289062500000000000000000000000000000000000) * (T - 999) ^ 7 * (4000 - T) ^ 5 + (3577491357400975183370728808611544999/4168520824746167404513972625788598390906257812500000000000000000000000000000000) * (T - 999) ^ 8 * (4000 - T) ^ 4 + (557283847803610127480909867473897/2084260412373083702256986312894299195453128906250000000000000000000000000000) * (T - 999) ^ 9 * (4000 - T) ^ 3 + (538348356265870106214213041783/10421302061865418511284931564471495977265644531250000000000000000000000000) * (T - 999) ^ 10 * (4000 - T) ^ 2 + (13197054280218708573640539/2605325515466354627821232891117873994316411132812500000000000000000000) * (T - 999) ^ 11 * (4000 - T) ^ 1 + (2542151450748241858051/20842604123730837022569863128942991954531289062500000000000000000000) * (T - 999) ^ 12 * (4000 - T) ^ 0) := by
    simp only [X', Y', X_eq, Y_eq]; ring
  linarith

theorem slope_low (T : ℝ) (h₁ : 999 ≤ T) (h₂ : T ≤ 4000) : 0 ≤ -(4 * (X' T * (12 * Y T + 3) - 12 * X T * Y' T) + 6 * (Y' T * (3 - 2 * X T) + 2 * X' T * Y T)) - (29/1000000) * (-2 * X T + 12 * Y T + 3) ^ 2 := by
  exact slope_low_0 T (by linarith) h₂

theorem Xhi_0 (T : ℝ) (h₁ : 3999 ≤ T) (h₂ : T ≤ 10000) : (-761/2000) ≤ -X T := by
  have key : ∀ s t : ℝ, 0 ≤ s → 0 ≤ t → 0 ≤ (3702745143427026689412959/583783443054006750450012500000000000000000000000000) * s ^ 0 * t ^ 6 + (1342442345170781474134739/233513377221602700180005000000000000000000000000) * s ^ 1 * t ^ 5 + (11798363076073589553/583783443054006750450012500000000000000000) * s ^ 2 * t ^ 4 + (148135595863654821/4670267544432054003600100000000000000000) * s ^ 3 * t ^ 3 + (140146364407303/4670267544432054003600100000000000000) * s ^ 4 * t ^ 2 + (1354386441/116756688610801350090002500000000) * s ^ 5 * t ^ 1 + (3152181/1459458607635016876125031250000) * s ^ 6 * t ^ 0 := by
    intro s t hs ht; positivity
  have h := key (T - 3999) (10000 - T) (by linarith) (by linarith)
  have e : -X T = (-761/2000) + ((3702745143427026689412959/583783443054006750450012500000000000000000000000000) * (T - 3999) ^ 0 * (10000 - T) ^ 6 + (1342442345170781474134739/233513377221602700180005000000000000000000000000) * (T - 3999) ^ 1 * (10000 - T) ^ 5 + (11798363076073589553/583783443054006750450012500000000000000000) * (T - 3999) ^ 2 * (10000 - T) ^ 4 + (148135595863654821/4670267544432054003600100000000000000000) * (T - 3999) ^ 3 * (10000 - T) ^ 3 + (140146364407303/4670267544432054003600100000000000000) * (T - 3999) ^ 4 * (10000 - T) ^ 2 + (1354386441/116756688610801350090002500000000) * (T - 3999) ^ 5 * (10000 - T) ^ 1 + (3152181/1459458607635016876125031250000) * (T - 3999) ^ 6 * (10000 - T) ^ 0) := by
    simp only [X_eq, Y_eq]; ring
  linarith

theorem Xhi (T : ℝ) (h₁ : 3999 ≤ T) (h₂ : T ≤ 10000) : (-761/2000) ≤ -X T := by
  exact Xhi_0 T (by linarith) h₂

theorem Yhi_0 (T : ℝ) (h₁ : 3999 ≤ T) (h₂ : T ≤ 10000) : (-189/500) ≤ -Y T := by
  have key : ∀ s t : ℝ, 0 ≤ s → 0 ≤ t → 0 ≤ (1056860546692808271891/19456205400900075002500000000000000000000000) * s ^ 0 * t ^ 5 + (2288668918468022707/97281027004500375012500000000000000000) * s ^ 1 * t ^ 4 + (6889391005100227/77824821603600300010000000000000000) * s ^ 2 * t ^ 3 + (95296168753/1556496432072006000200000000000) * s ^ 3 * t ^ 2 + (248835179/3891241080180015000500000000) * s ^ 4 * t ^ 1 + (3430087/311299286414401200040000000) * s ^ 5 * t ^ 0 := by
    intro s t hs ht; positivity
  have h := key (T - 3999) (10000 - T) (by linarith) (by linarith)
  have e : -Y T = (-189/500) + ((1056860546692808271891/19456205400900075002500000000000000000000000) * (T - 3999) ^ 0 * (10000 - T) ^ 5 + (2288668918468022707/97281027004500375012500000000000000000) * (T - 3999) ^ 1 * (10000 - T) ^ 4 + (6889391005100227/77824821603600300010000000000000000) * (T - 3999) ^ 2 * (10000 - T) ^ 3 + (95296168753/1556496432072006000200000000000) * (T - 3999) ^ 3 * (10000 - T) ^ 2 + (248835179/3891241080180015000500000000) * (T - 3999) ^ 4 * (10000 - T) ^ 1 + (3430087/311299286414401200040000000) * (T - 3999) ^ 5 * (10000 - T) ^ 0) := by
    simp only [X_eq, Y_eq]; ring
  linarith

theorem Yhi (T : ℝ) (h₁ : 3999 ≤ T) (h₂ : T ≤ 10000) : (-189/500) ≤ -Y T := by
  exact Yhi_0 T (by linarith) h₂

theorem Dhi1_0 (T : ℝ) (h₁ : 3999 ≤ T) (h₂ : T ≤ 6999) : (59/10) ≤ -2 * X T + 12 * Y T + 3 := by
  have key : ∀ s t : ℝ, 0 ≤ s → 0 ≤ t → 0 ≤ (5440746928742642778532682959/4556250000000000000000000000000000000000000000000) * s ^ 0 * t ^ 6 + (4587589535246740139304555959/759375000000000000000000000000000000000000000000) * s ^ 1 * t ^ 5 + (1233780714665103240735809653/101250000000000000000000000000000000000000000000) * s ^ 2 * t ^ 4 + (3044440467365071884241301959/227812500000000000000000000000000000000000000000) * s ^ 3 * t ^ 3 + (2600994086411425982406174959/303750000000000000000000000000000000000000000000) * s ^ 4 * t ^ 2 + (744265631860483457900682653/253125000000000000000000000000000000000000000000) * s ^ 5 * t ^ 1 + (1865561158426902415128920959/4556250000000000000000000000000000000000000000000) * s ^ 6 * t ^ 0 := by
    intro s t hs ht; positivity
  have h := key (T - 3999) (6999 - T) (by linarith) (by linarith)
  have e : -2 * X T + 12 * Y T + 3 = (59/10) + ((5440746928742642778532682959/4556250000000000000000000000000000000000000000000) * (T - 3999) ^ 0 * (6999 - T) ^ 6 + (4587589535246740139304555959/759375000000000000000000000000000000000000000000) * (T - 3999) ^ 1 * (6999 - T) ^ 5 + (1233780714665103240735809653/101250000000000000000000000000000000000000000000) * (T - 3999) ^ 2 * (6999 - T) ^ 4 + (3044440467365071884241301959/227812500000000000000000000000000000000000000000) * (T - 3999) ^ 3 * (6999 - T) ^ 3 + (2600994086411425982406174959/303750000000000000000000000000000000000000000000) * (T - 3999) ^ 4 * (6999 - T) ^ 2 + (744265631860483457900682653/253125000000000000000000000000000000000000000000) * (T - 3999) ^ 5 * (6999 - T) ^ 1 + (1865561158426902415128920959/4556250000000000000000000000000000000000000000000) * (T - 3999) ^ 6 * (6999 - T) ^ 0) := by
    simp only [X_eq, Y_eq]; ring
  linarith

theorem Dhi1_1 (T : ℝ) (h₁ : 6999 ≤ T) (h₂ : T ≤ 8499) : (59/10) ≤ -2 * X T + 12 * Y T + 3 := by
  have key : ∀ s t : ℝ, 0 ≤ s → 0 ≤ t → 0 ≤ (1865561158426902415128920959/71191406250000000000000000000000000000000000000) * s ^ 0 * t ^ 6 + (560647763283209478614119153/3955078125000000000000000000000000000000000000) * s ^ 1 * t ^ 5 + (1498565784691211369088543959/4746093750000000000000000000000000000000000000) * s ^ 2 * t ^ 4 + (1306142675895620884492480459/3559570312500000000000000000000000000000000000) * s ^ 3 * t ^ 3 + (122153654941763232131018551/527343750000000000000000000000000000000000000) * s ^ 4 * t ^ 2 + (882810083755041777773603459/11865234375000000000000000000000000000000000000) * s ^ 5 * t ^ 1 + (677054657529204682400789959/71191406250000000000000000000000000000000000000) * s ^ 6 * t ^ 0 := by
    intro s t hs ht; positivity
  have h := key (T - 6999) (8499 - T) (by linarith) (by linarith)
  have e : -2 * X T + 12 * Y T + 3 = (59/10) + ((1865561158426902415128920959/71191406250000000000000000000000000000000000000) * (T - 6999) ^ 0 * (8499 - T) ^ 6 + (560647763283209478614119153/3955078125000000000000000000000000000000000000) * (T - 6999) ^ 1 * (8499 - T) ^ 5 + (1498565784691211369088543959/4746093750000000000000000000000000000000000000) * (T - 6999) ^ 2 * (8499 - T) ^ 4 + (1306142675895620884492480459/3559570312500000000000000000000000000000000000) * (T - 6999) ^ 3 * (8499 - T) ^ 3 + (122153654941763232131018551/527343750000000000000000000000000000000000000) * (T - 6999) ^ 4 * (8499 - T) ^ 2 + (882810083755041777773603459/11865234375000000000000000000000000000000000000) * (T - 6999) ^ 5 * (8499 - T) ^ 1 + (677054657529204682400789959/71191406250000000000000000000000000000000000000) * (T - 6999) ^ 6 * (8499 - T) ^ 0) := by
    simp only [X_eq, Y_eq]; ring
  linarith

theorem Dhi1_2 (T : ℝ) (h₁ : 8499 ≤ T) (h₂ : T ≤ 10000) : (59/10) ≤ -2 * X T + 12 * Y T + 3 := by
  have key : ∀ s t : ℝ, 0 ≤ s → 0 ≤ t → 0 ≤ (35634455659431825389515261/3761928784550578618750000000000000000000000000) * s ^ 0 * t ^ 6 + (59515207707690572079713/1504771513820231447500000000000000000000000) * s ^ 1 * t ^ 5 + (217974692361531069/3761928784550578618750000000000000000) * s ^ 2 * t ^ 4 + (947739011219879/30095430276404628950000000000000000) * s ^ 3 * t ^ 3 + (109337177437/30095430276404628950000000000000) * s ^ 4 * t ^ 2 + (1569117/376192878455057861875000000) * s ^ 5 * t ^ 1 + (627809/150477151382023144750000000) * s ^ 6 * t ^ 0 := by
    intro s t hs ht; positivity
  have h := key (T - 8499) (10000 - T) (by linarith) (by linarith)
  have e : -2 * X T + 12 * Y T + 3 = (59/10) + ((35634455659431825389515261/3761928784550578618750000000000000000000000000) * (T - 8499) ^ 0 * (10000 - T) ^ 6 + (59515207707690572079713/1504771513820231447500000000000000000000000) * (T - 8499) ^ 1 * (10000 - T) ^ 5 + (217974692361531069/3761928784550578618750000000000000000) * (T - 8499) ^ 2 * (10000 - T) ^ 4 + (947739011219879/30095430276404628950000000000000000) * (T - 8499) ^ 3 * (10000 - T) ^ 3 + (109337177437/30095430276404628950000000000000) * (T - 8499) ^ 4 * (10000 - T) ^ 2 + (1569117/376192878455057861875000000) * (T - 8499) ^ 5 * (10000 - T) ^ 1 + (627809/150477151382023144750000000) * (T - 8499) ^ 6 * (10000 - T) ^ 0) := by
    simp only [X_eq, Y_eq]; ring
  linarith

theorem Dhi1 (T : ℝ) (h₁ : 3999 ≤ T) (h₂ : T ≤ 10000) : (59/10) ≤ -2 * X T + 12 * Y T + 3 := by
  rcases le_total T 6999 with h | h
  · exact Dhi1_0 T (by linarith) h
  rcases le_total T 8499 with h | h
  · exact Dhi1_1 T (by linarith) h
  exact Dhi1_2 T (by linarith) h₂

theorem Dhi2_0 (T : ℝ) (h₁ : 3999 ≤ T) (h₂ : T ≤ 10000) : (-339/50) ≤ -(-2 * X T + 12 * Y T + 3) := by
  have key : ∀ s t : ℝ, 0 ≤ s → 0 ≤ t → 0 ≤ (59253071257357221467317041/291891721527003375225006250000000000000000000000000) * s ^ 0 * t ^ 6 + (4238045385712786721927953/116756688610801350090002500000000000000000000000) * s ^ 1 * t ^ 5 + (54072832972986249189/291891721527003375225006250000000000000000) * s ^ 2 * t ^ 4 + (556116370701358799/2335133772216027001800050000000000000000) * s ^ 3 * t ^ 3 + (448094356651697/2335133772216027001800050000000000000) * s ^ 4 * t ^ 2 + (3717225777/29189172152700337522500625000000) * s ^ 5 * t ^ 1 + (208071629/11675668861080135009000250000000) * s ^ 6 * t ^ 0 := by
    intro s t hs ht; positivity
  have h := key (T - 3999) (10000 - T) (by linarith) (by linarith)
  have e : -(-2 * X T + 12 * Y T + 3) = (-339/50) + ((59253071257357221467317041/291891721527003375225006250000000000000000000000000) * (T - 3999) ^ 0 * (10000 - T) ^ 6 + (4238045385712786721927953/116756688610801350090002500000000000000000000000) * (T - 3999) ^ 1 * (10000 - T) ^ 5 + (54072832972986249189/291891721527003375225006250000000000000000) * (T - 3999) ^ 2 * (10000 - T) ^ 4 + (556116370701358799/2335133772216027001800050000000000000000) * (T - 3999) ^ 3 * (10000 - T) ^ 3 + (448094356651697/2335133772216027001800050000000000000) * (T - 3999) ^ 4 * (10000 - T) ^ 2 + (3717225777/29189172152700337522500625000000) * (T - 3999) ^ 5 * (10000 - T) ^ 1 + (208071629/11675668861080135009000250000000) * (T - 3999) ^ 6 * (10000 - T) ^ 0) := by
    simp only [X_eq, Y_eq]; ring
  linarith

theorem Dhi2 (T : ℝ) (h₁ : 3999 ≤ T) (h₂ : T ≤ 10000) : (-339/50) ≤ -(-2 * X T + 12 * Y T + 3) := by
  exact Dhi2_0 T (by linarith) h₂

theorem Dlo1_0 (T : ℝ) (h₁ : 999 ≤ T) (h₂ : T ≤ 4000) : (117/20) ≤ -2 * X T + 12 * Y T + 3 := by
  have key : ∀ s t : ℝ, 0 ≤ s → 0 ≤ t → 0 ≤ (46396048752919805866444959/4565370097125843862506250000000000000000000000000) * s ^ 0 * t ^ 6 + (66215507281540144111080283/9130740194251687725012500000000000000000000000) * s ^ 1 * t ^ 5 + (22922047754242288002477/913074019425168772501250000000000000000000) * s ^ 2 * t ^ 4 + (31805298182867218861/913074019425168772501250000000000000000) * s ^ 3 * t ^ 3 + (22277315315052577/913074019425168772501250000000000000) * s ^ 4 * t ^ 2 + (4953777911313/570671262140730482813281250000000) * s ^ 5 * t ^ 1 + (5751540559/4565370097125843862506250000000) * s ^ 6 * t ^ 0 := by
    intro s t hs ht; positivity
  have h := key (T - 999) (4000 - T) (by linarith) (by linarith)
  have e : -2 * X T + 12 * Y T + 3 = (117/20) + ((46396048752919805866444959/4565370097125843862506250000000000000000000000000) * (T - 999) ^ 0 * (4000 - T) ^ 6 + (66215507281540144111080283/9130740194251687725012500000000000000000000000) * (T - 999) ^ 1 * (4000 - T) ^ 5 + (22922047754242288002477/913074019425168772501250000000000000000000) * (T - 999) ^ 2 * (4000 - T) ^ 4 + (31805298182867218861/913074019425168772501250000000000000000) * (T - 999) ^ 3 * (4000 - T) ^ 3 + (22277315315052577/913074019425168772501250000000000000) * (T - 999) ^ 4 * (4000 - T) ^ 2 + (4953777911313/570671262140730482813281250000000) * (T - 999) ^ 5 * (4000 - T) ^ 1 + (5751540559/4565370097125843862506250000000) * (T - 999) ^ 6 * (4000 - T) ^ 0) := by
    simp only [X_eq, Y_eq]; ring
  linarith

theorem Dlo1 (T : ℝ) (h₁ : 999 ≤ T) (h₂ : T ≤ 4000) : (117/20) ≤ -2 * X T + 12 * Y T + 3 := by
  exact Dlo1_0 T (by linarith) h₂

theorem Dlo2_0 (T : ℝ) (h₁ : 999 ≤ T) (h₂ : T ≤ 2499) : (-351/50) ≤ -(-2 * X T + 12 * Y T + 3) := by
  have key : ∀ s t : ℝ, 0 ≤ s → 0 ≤ t → 0 ≤ (2422034650415693398044518347/23730468750000000000000000000000000000000000000) * s ^ 0 * t ^ 6 + (4531234128833505284075118541/11865234375000000000000000000000000000000000000) * s ^ 1 * t ^ 5 + (2633016257180514175483932041/4746093750000000000000000000000000000000000000) * s ^ 2 * t ^ 4 + (459849202534382149578331847/1186523437500000000000000000000000000000000000) * s ^ 3 * t ^ 3 + (613933164525649246703309041/4746093750000000000000000000000000000000000000) * s ^ 4 * t ^ 2 + (210354786927946024763872541/11865234375000000000000000000000000000000000000) * s ^ 5 * t ^ 1 + (860100319385559269033161/878906250000000000000000000000000000000000000) * s ^ 6 * t ^ 0 := by
    intro s t hs ht; positivity
  have h := key (T - 999) (2499 - T) (by linarith) (by linarith)
  have e : -(-2 * X T + 12 * Y T + 3) = (-351/50) + ((2422034650415693398044518347/23730468750000000000000000000000000000000000000) * (T - 999) ^ 0 * (2499 - T) ^ 6 + (4531234128833505284075118541/11865234375000000000000000000000000000000000000) * (T - 999) ^ 1 * (2499 - T) ^ 5 + (2633016257180514175483932041/4746093750000000000000000000000000000000000000) * (T - 999) ^ 2 * (2499 - T) ^ 4 + (459849202534382149578331847/1186523437500000000000000000000000000000000000) * (T - 999) ^ 3 * (2499 - T) ^ 3 + (613933164525649246703309041/4746093750000000000000000000000000000000000000) * (T - 999) ^ 4 * (2499 - T) ^ 2 + (210354786927946024763872541/11865234375000000000000000000000000000000000000) * (T - 999) ^ 5 * (2499 - T) ^ 1 + (860100319385559269033161/878906250000000000000000000000000000000000000) * (T - 999) ^ 6 * (2499 - T) ^ 0) := by
    simp only [X_eq, Y_eq]; ring
  linarith

theorem Dlo2_1 (T : ℝ) (h₁ : 2499 ≤ T) (h₂ : T ≤ 2874) : (-351/50) ≤ -(-2 * X T + 12 * Y T + 3) := by
  have key : ∀ s t : ℝ, 0 ≤ s → 0 ≤ t → 0 ≤ (860100319385559269033161/214576721191406250000000000000000000000000) * s ^ 0 * t ^ 6 + (4312057575725171224829927/362098217010498046875000000000000000000000) * s ^ 1 * t ^ 5 + (3938881906280414357136479/289678573608398437500000000000000000000000) * s ^ 2 * t ^ 4 + (247837426583472654129217/18104910850524902343750000000000000000000) * s ^ 3 * t ^ 3 + (1342095700411596147252901/72419643402099609375000000000000000000000) * s ^ 4 * t ^ 2 + (84262676718888583918243/5657784640789031982421875000000000000000) * s ^ 5 * t ^ 1 + (394028710393766770721273/90524554252624511718750000000000000000000) * s ^ 6 * t ^ 0 := by
    intro s t hs ht; positivity
  have h := key (T - 2499) (2874 - T) (by linarith) (by linarith)
  have e : -(-2 * X T + 12 * Y T + 3) = (-351/50) + ((860100319385559269033161/214576721191406250000000000000000000000000) * (T - 2499) ^ 0 * (2874 - T) ^ 6 + (4312057575725171224829927/362098217010498046875000000000000000000000) * (T - 2499) ^ 1 * (2874 - T) ^ 5 + (3938881906280414357136479/289678573608398437500000000000000000000000) * (T - 2499) ^ 2 * (2874 - T) ^ 4 + (247837426583472654129217/18104910850524902343750000000000000000000) * (T - 2499) ^ 3 * (2874 - T) ^ 3 + (1342095700411596147252901/72419643402099609375000000000000000000000) * (T - 2499) ^ 4 * (2874 - T) ^ 2 + (84262676718888583918243/5657784640789031982421875000000000000000) * (T - 2499) ^ 5 * (2874 - T) ^ 1 + (394028710393766770721273/90524554252624511718750000000000000000000) * (T - 2499) ^ 6 * (2874 - T) ^ 0) := by
    simp only [X_eq, Y_eq]; ring
  linarith

theorem Dlo2_2 (T : ℝ) (h₁ : 2874 ≤ T) (h₂ : T ≤ 4000) : (-351/50) ≤ -(-2 * X T + 12 * Y T + 3) := by
  have key : ∀ s t : ℝ, 0 ≤ s → 0 ≤ t → 0 ≤ (1182086131181300312163819/199035427730507556250000000000000000000000000) * s ^ 0 * t ^ 6 + (64977477825240537895831/796141710922030225000000000000000000000000) * s ^ 1 * t ^ 5 + (69120965603528654103/159228342184406045000000000000000000000) * s ^ 2 * t ^ 4 + (313970459837203033/318456684368812090000000000000000000) * s ^ 3 * t ^ 3 + (693820299648887/636913368737624180000000000000000) * s ^ 4 * t ^ 2 + (232635082953/398070855461015112500000000000) * s ^ 5 * t ^ 1 + (1560959441/12738267374752483600000000000) * s ^ 6 * t ^ 0 := by
    intro s t hs ht; positivity
  have h := key (T - 2874) (4000 - T) (by linarith) (by linarith)
  have e : -(-2 * X T + 12 * Y T + 3) = (-351/50) + ((1182086131181300312163819/199035427730507556250000000000000000000000000) * (T - 2874) ^ 0 * (4000 - T) ^ 6 + (64977477825240537895831/796141710922030225000000000000000000000000) * (T - 2874) ^ 1 * (4000 - T) ^ 5 + (69120965603528654103/159228342184406045000000000000000000000) * (T - 2874) ^ 2 * (4000 - T) ^ 4 + (313970459837203033/318456684368812090000000000000000000) * (T - 2874) ^ 3 * (4000 - T) ^ 3 + (693820299648887/636913368737624180000000000000000) * (T - 2874) ^ 4 * (4000 - T) ^ 2 + (232635082953/398070855461015112500000000000) * (T - 2874) ^ 5 * (4000 - T) ^ 1 + (1560959441/12738267374752483600000000000) * (T - 2874) ^ 6 * (4000 - T) ^ 0) := by
    simp only [X_eq, Y_eq]; ring
  linarith

theorem Dlo2 (T : ℝ) (h₁ : 999 ≤ T) (h₂ : T ≤ 4000) : (-351/50) ≤ -(-2 * X T + 12 * Y T + 3) := by
  rcases le_total T 2499 with h | h
  · exact Dlo2_0 T (by linarith) h
  rcases le_total T 2874 with h | h
  · exact Dlo2_1 T (by linarith) h
  exact Dlo2_2 T (by linarith) h₂

theorem Uhi_0 (T : ℝ) (h₁ : 3999 ≤ T) (h₂ : T ≤ 10000) : 0 ≤ 9 / 40 * (-2 * X T + 12 * Y T + 3) - 4 * X T := by
  have key : ∀ s t : ℝ, 0 ≤ s → 0 ≤ t → 0 ≤ (637941970157947141947183351/11675668861080135009000250000000000000000000000000000) * s ^ 0 * t ^ 6 + (71352979142247437433427543/4670267544432054003600100000000000000000000000000) * s ^ 1 * t ^ 5 + (470338549329010921539/11675668861080135009000250000000000000000000) * s ^ 2 * t ^ 4 + (6985800332780156489/93405350888641080072002000000000000000000) * s ^ 3 * t ^ 3 + (7283859942718967/93405350888641080072002000000000000000) * s ^ 4 * t ^ 2 + (21245425647/1167566886108013500900025000000000) * s ^ 5 * t ^ 1 + (2197147019/467026754443205400360010000000000) * s ^ 6 * t ^ 0 := by
    intro s t hs ht; positivity
  have h := key (T - 3999) (10000 - T) (by linarith) (by linarith)
  have e : 9 / 40 * (-2 * X T + 12 * Y T + 3) - 4 * X T = 0 + ((637941970157947141947183351/11675668861080135009000250000000000000000000000000000) * (T - 3999) ^ 0 * (10000 - T) ^ 6 + (71352979142247437433427543/4670267544432054003600100000000000000000000000000) * (T - 3999) ^ 1 * (10000 - T) ^ 5 + (470338549329010921539/11675668861080135009000250000000000000000000) * (T - 3999) ^ 2 * (10000 - T) ^ 4 + (6985800332780156489/93405350888641080072002000000000000000000) * (T - 3999) ^ 3 * (10000 - T) ^ 3 + (7283859942718967/93405350888641080072002000000000000000) * (T - 3999) ^ 4 * (10000 - T) ^ 2 + (21245425647/1167566886108013500900025000000000) * (T - 3999) ^ 5 * (10000 - T) ^ 1 + (2197147019/467026754443205400360010000000000) * (T - 3999) ^ 6 * (10000 - T) ^ 0) := by
    simp only [X_eq, Y_eq]; ring
  linarith

theorem Uhi (T : ℝ) (h₁ : 3999 ≤ T) (h₂ : T ≤ 10000) : 0 ≤ 9 / 40 * (-2 * X T + 12 * Y T + 3) - 4 * X T := by
  exact Uhi_0 T (by linarith) h₂

theorem Vhi_0 (T : ℝ) (h₁ : 3999 ≤ T) (h₂ : T ≤ 10000) : 0 ≤ 67 / 200 * (-2 * X T + 12 * Y T + 3) - 6 * Y T := by
  have key : ∀ s t : ℝ, 0 ≤ s → 0 ≤ t → 0 ≤ (3325625865835490977362758253/58378344305400675045001250000000000000000000000000000) * s ^ 0 * t ^ 6 + (276499732245600109237096349/23351337722160270018000500000000000000000000000000) * s ^ 1 * t ^ 5 + (2979239795715905178537/58378344305400675045001250000000000000000000) * s ^ 2 * t ^ 4 + (33325399819510322467/467026754443205400360010000000000000000000) * s ^ 3 * t ^ 3 + (28921750210236301/467026754443205400360010000000000000000) * s ^ 4 * t ^ 2 + (190987772691/5837834430540067504500125000000000) * s ^ 5 * t ^ 1 + (11949853357/2335133772216027001800050000000000) * s ^ 6 * t ^ 0 := by
    intro s t hs ht; positivity
  have h := key (T - 3999) (10000 - T) (by linarith) (by linarith)
  have e : 67 / 200 * (-2 * X T + 12 * Y T + 3) - 6 * Y T = 0 + ((3325625865835490977362758253/58378344305400675045001250000000000000000000000000000) * (T - 3999) ^ 0 * (10000 - T) ^ 6 + (276499732245600109237096349/23351337722160270018000500000000000000000000000000) * (T - 3999) ^ 1 * (10000 - T) ^ 5 + (2979239795715905178537/58378344305400675045001250000000000000000000) * (T - 3999) ^ 2 * (10000 - T) ^ 4 + (33325399819510322467/467026754443205400360010000000000000000000) * (T - 3999) ^ 3 * (10000 - T) ^ 3 + (28921750210236301/467026754443205400360010000000000000000) * (T - 3999) ^ 4 * (10000 - T) ^ 2 + (190987772691/5837834430540067504500125000000000) * (T - 3999) ^ 5 * (10000 - T) ^ 1 + (11949853357/2335133772216027001800050000000000) * (T - 3999) ^ 6 * (10000 - T) ^ 0) := by
    simp only [X_eq, Y_eq]; ring
  linarith

theorem Vhi (T : ℝ) (h₁ : 3999 ≤ T) (h₂ : T ≤ 10000) : 0 ≤ 67 / 200 * (-2 * X T + 12 * Y T + 3) - 6 * Y T := by
  exact Vhi_0 T (by linarith) h₂

theorem Ulo_0 (T : ℝ) (h₁ : 999 ≤ T) (h₂ : T ≤ 4000) : 0 ≤ 447 / 1000 * (-2 * X T + 12 * Y T + 3) - 4 * X T := by
  have key : ∀ s t : ℝ, 0 ≤ s → 0 ≤ t → 0 ≤ (24900918963755963168650814673/4565370097125843862506250000000000000000000000000000) * s ^ 0 * t ^ 6 + (51439887119706032411840372501/9130740194251687725012500000000000000000000000000) * s ^ 1 * t ^ 5 + (20402757228858749799621219/913074019425168772501250000000000000000000000) * s ^ 2 * t ^ 4 + (32698212350750817872867/913074019425168772501250000000000000000000) * s ^ 3 * t ^ 3 + (26650932128985175919/913074019425168772501250000000000000000) * s ^ 4 * t ^ 2 + (6927328704832911/570671262140730482813281250000000000) * s ^ 5 * t ^ 1 + (9410392457873/4565370097125843862506250000000000) * s ^ 6 * t ^ 0 := by
    intro s t hs ht; positivity
  have h := key (T - 999) (4000 - T) (by linarith) (by linarith)
  have e : 447 / 1000 * (-2 * X T + 12 * Y T + 3) - 4 * X T = 0 + ((24900918963755963168650814673/4565370097125843862506250000000000000000000000000000) * (T - 999) ^ 0 * (4000 - T) ^ 6 + (51439887119706032411840372501/9130740194251687725012500000000000000000000000000) * (T - 999) ^ 1 * (4000 - T) ^ 5 + (20402757228858749799621219/913074019425168772501250000000000000000000000) * (T - 999) ^ 2 * (4000 - T) ^ 4 + (32698212350750817872867/913074019425168772501250000000000000000000) * (T - 999) ^ 3 * (4000 - T) ^ 3 + (26650932128985175919/913074019425168772501250000000000000000) * (T - 999) ^ 4 * (4000 - T) ^ 2 + (6927328704832911/570671262140730482813281250000000000) * (T - 999) ^ 5 * (4000 - T) ^ 1 + (9410392457873/4565370097125843862506250000000000) * (T - 999) ^ 6 * (4000 - T) ^ 0) := by
    simp only [X_eq, Y_eq]; ring
  linarith

theorem Ulo (T : ℝ) (h₁ : 999 ≤ T) (h₂ : T ≤ 4000) : 0 ≤ 447 / 1000 * (-2 * X T + 12 * Y T + 3) - 4 * X T := by
  exact Ulo_0 T (by linarith) h₂

theorem Vlo_0 (T : ℝ) (h₁ : 999 ≤ T) (h₂ : T ≤ 1749) : 0 ≤ 361 / 1000 * (-2 * X T + 12 * Y T + 3) - 6 * Y T := by
  have key : ∀ s t : ℝ, 0 ≤ s → 0 ≤ t → 0 ≤ (67181515172048116490383876733/370788574218750000000000000000000000000000000000) * s ^ 0 * t ^ 6 + (124931255839507078008574418449/185394287109375000000000000000000000000000000000) * s ^ 1 * t ^ 5 + (73479177348195880338577894199/74157714843750000000000000000000000000000000000) * s ^ 2 * t ^ 4 + (4837951446728692023248909161/6179809570312500000000000000000000000000000000) * s ^ 3 * t ^ 3 + (31892755717504941489733158199/74157714843750000000000000000000000000000000000) * s ^ 4 * t ^ 2 + (35688354456407056334384946449/185394287109375000000000000000000000000000000000) * s ^ 5 * t ^ 1 + (17476014811954839839539140733/370788574218750000000000000000000000000000000000) * s ^ 6 * t ^ 0 := by
    intro s t hs ht; positivity
  have h := key (T - 999) (1749 - T) (by linarith) (by linarith)
  have e : 361 / 1000 * (-2 * X T + 12 * Y T + 3) - 6 * Y T = 0 + ((67181515172048116490383876733/370788574218750000000000000000000000000000000000) * (T - 999) ^ 0 * (1749 - T) ^ 6 + (124931255839507078008574418449/185394287109375000000000000000000000000000000000) * (T - 999) ^ 1 * (1749 - T) ^ 5 + (73479177348195880338577894199/74157714843750000000000000000000000000000000000) * (T - 999) ^ 2 * (1749 - T) ^ 4 + (4837951446728692023248909161/6179809570312500000000000000000000000000000000) * (T - 999) ^ 3 * (1749 - T) ^ 3 + (31892755717504941489733158199/74157714843750000000000000000000000000000000000) * (T - 999) ^ 4 * (1749 - T) ^ 2 + (35688354456407056334384946449/185394287109375000000000000000000000000000000000) * (T - 999) ^ 5 * (1749 - T) ^ 1 + (17476014811954839839539140733/370788574218750000000000000000000000000000000000) * (T - 999) ^ 6 * (1749 - T) ^ 0) := by
    simp only [X_eq, Y_eq]; ring
  linarith

theorem Vlo_1 (T : ℝ) (h₁ : 1749 ≤ T) (h₂ : T ≤ 4000) : 0 ≤ 361 / 1000 * (-2 * X T + 12 * Y T + 3) - 6 * Y T := by
  have key : ∀ s t : ℝ, 0 ≤ s → 0 ≤ t → 0 ≤ (52428044435864519518617422199/813079454915513756256250000000000000000000000000000) * s ^ 0 * t ^ 6 + (1232033207530514228266725913/1626158909831027512512500000000000000000000000000) * s ^ 1 * t ^ 5 + (808533661177584572068197/162615890983102751251250000000000000000000000) * s ^ 2 * t ^ 4 + (1941419410996820804071/162615890983102751251250000000000000000000) * s ^ 3 * t ^ 3 + (2131567026542977297/162615890983102751251250000000000000000) * s ^ 4 * t ^ 2 + (693152901264243/101634931864439219532031250000000000) * s ^ 5 * t ^ 1 + (1117352444299/813079454915513756256250000000000) * s ^ 6 * t ^ 0 := by
    intro s t hs ht; positivity
  have h := key (T - 1749) (4000 - T) (by linarith) (by linarith)
  have e : 361 / 1000 * (-2 * X T + 12 * Y T + 3) - 6 * Y T = 0 + ((52428044435864519518617422199/813079454915513756256250000000000000000000000000000) * (T - 1749) ^ 0 * (4000 - T) ^ 6 + (1232033207530514228266725913/1626158909831027512512500000000000000000000000000) * (T - 1749) ^ 1 * (4000 - T) ^ 5 + (808533661177584572068197/162615890983102751251250000000000000000000000) * (T - 1749) ^ 2 * (4000 - T) ^ 4 + (1941419410996820804071/162615890983102751251250000000000000000000) * (T - 1749) ^ 3 * (4000 - T) ^ 3 + (2131567026542977297/162615890983102751251250000000000000000) * (T - 1749) ^ 4 * (4000 - T) ^ 2 + (693152901264243/101634931864439219532031250000000000) * (T - 1749) ^ 5 * (4000 - T) ^ 1 + (1117352444299/813079454915513756256250000000000) * (T - 1749) ^ 6 * (4000 - T) ^ 0) := by
    simp only [X_eq, Y_eq]; ring
  linarith

theorem Vlo (T : ℝ) (h₁ : 999 ≤ T) (h₂ : T ≤ 4000) : 0 ≤ 361 / 1000 * (-2 * X T + 12 * Y T + 3) - 6 * Y T := by
  rcases le_total T 1749 with h | h
  · exact Vlo_0 T (by linarith) h
  exact Vlo_1 T (by linarith) h₂

end CS.Locus
