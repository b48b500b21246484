/-
Certificates for the powers of ten used by the binary-to-decimal conversion: for each exponent `q` from
-1074 to 971 two pairs of denominators of Farey neighbours of `2^q / 10^k`.  They are data for
`Proofs.Farey`, which checks them; nothing is assumed about them.
-/
namespace FastPrintf.Farey

/-- Exponents from -1074. -/
def certs0 : List (Nat × Nat × Nat × Nat) :=
  [(30849424181466913, 13330977524132795, 17518446657334118, 13330977524132795),
   (22090200852799854, 35421178376932649, 8759223328667059, 13330977524132795),
   (4187469133201323, 35421178376932649, 4187469133201323, 14483832710926034),
   (19804323755066986, 35421178376932649, 4187469133201323, 15616854621865663),
   (9902161877533493, 35421178376932649, 9902161877533493, 15616854621865663),
   (14089631010734816, 35421178376932649, 14089631010734816, 7241916355463017),
   (7044815505367408, 35421178376932649, 7044815505367408, 14286731860830425),
   (3522407752683704, 35421178376932649, 3522407752683704, 17809139613514129),
   (17612038763418520, 24853955118881537, 17612038763418520, 7241916355463017),
   (8806019381709260, 33659974500590797, 8806019381709260, 16047935737172277),
   (4403009690854630, 33659974500590797, 4403009690854630, 16047935737172277),
   (22015048454273150, 33659974500590797, 10370122407955503, 11644926046317647),
   (11007524227136575, 33659974500590797, 11007524227136575, 11644926046317647),
   (22333749363863686, 33659974500590797, 11007524227136575, 11326225136727111),
   (11166874681931843, 33659974500590797, 11166874681931843, 11326225136727111),
   (22174398909068418, 33659974500590797, 10688823317546039, 11485575591522379),
   (11087199454534209, 33659974500590797, 11087199454534209, 11485575591522379),
   (22373586977562503, 33659974500590797, 11087199454534209, 11286387523028294),
   (33460786432096712, 11485575591522379, 10489635249051954, 11485575591522379),
   (16730393216048356, 28215968807570735, 16730393216048356, 11485575591522379),
   (8365196608024178, 28215968807570735, 8365196608024178, 11485575591522379),
   (35585225073124488, 3120378983498201, 16862951172135282, 3120378983498201),
   (20912991520060445, 24033370503558646, 17792612536562244, 3120378983498201),
   (20912991520060445, 32929676771839768, 8896306268281122, 12016685251779323),
   (20912991520060445, 16464838385919884, 4448153134140561, 16464838385919884),
   (25361144654201006, 28481523637699207, 16000007703706403, 3120378983498201),
   (12680572327100503, 28481523637699207, 12680572327100503, 15800951310598704),
   (33261620309500358, 20581047982399855, 12680572327100503, 7900475655299352),
   (17460668998901654, 28481523637699207, 17460668998901654, 11020854638797553),
   (8730334499450827, 28481523637699207, 8730334499450827, 11020854638797553),
   (18605929068575017, 28481523637699207, 8730334499450827, 9875594569124190),
   (27336263568025844, 11020854638797553, 16315408929228291, 11020854638797553),
   (13668131784012922, 24688986422810475, 13668131784012922, 11020854638797553),
   (6834065892006461, 31523052314816936, 6834065892006461, 17854920530804014),
   (6834065892006461, 29429657941421390, 6834065892006461, 15761526157408468),
   (34170329460032305, 15761526157408468, 2647277145215369, 15761526157408468),
   (34170329460032305, 7880763078704234, 10528040223919603, 7880763078704234),
   (34170329460032305, 3940381539352117, 14468421763271720, 3940381539352117),
   (22349184841975954, 19701907696760585, 2647277145215369, 17054630551545216),
   (11174592420987977, 30876500117748562, 11174592420987977, 8527315275772608),
   (26612842479862258, 15438250058874281, 11174592420987977, 15438250058874281),
   (24996461987191323, 15438250058874281, 9558211928317042, 15438250058874281),
   (35655606081907083, 15438250058874281, 4779105964158521, 15438250058874281),
   (25546928070390682, 15438250058874281, 10108678011516401, 15438250058874281),
   (28211714094069622, 15438250058874281, 12773464035195341, 15438250058874281),
   (22882142046711742, 18103036082553221, 4779105964158521, 13323930118394700),
   (29544107105909092, 18103036082553221, 11441071023355871, 6661965059197350),
   (14772053552954546, 32875089635507767, 14772053552954546, 3330982529598675),
   (26213124576310417, 21434018612151896, 4779105964158521, 16654912647993375),
   (26213124576310417, 10717009306075948, 15496115270234469, 10717009306075948),
   (31571629229348391, 5358504653037974, 15496115270234469, 5358504653037974),
   (26213124576310417, 26792523265189870, 17522144243118622, 579398688879453),
   (26213124576310417, 13396261632594935, 12816862943715482, 13396261632594935),
   (26213124576310417, 19804693104452676, 6408431471857741, 13396261632594935),
   (26213124576310417, 9902346552226338, 16310778024084079, 9902346552226338),
   (6408431471857741, 30286438345558467, 6408431471857741, 17469575401842985),
   (31164297852423586, 24755866380565845, 6408431471857741, 11939003436850363),
   (15582148926211793, 24755866380565845, 15582148926211793, 9173717454354052),
   (6408431471857741, 33051724328054778, 6408431471857741, 13826429912481555),
   (35751156579600612, 29342725107742871, 6408431471857741, 16525862164027389),
   (17875578289800306, 29342725107742871, 17875578289800306, 11467146817942565),
   (30692441233515788, 29342725107742871, 1349716125772917, 17195279975786618),
   (15346220616757894, 29342725107742871, 15346220616757894, 13996504490984977),
   (7673110308378947, 29342725107742871, 7673110308378947, 13996504490984977),
   (18507917708060909, 29342725107742871, 7673110308378947, 10834807399681962),
   (7673110308378947, 31154706073272969, 7673110308378947, 15808485456515075),
   (7673110308378947, 34760128807583852, 7673110308378947, 11740797882447011),
   (25053174712170873, 17380064403791926, 7673110308378947, 17380064403791926),
   (7673110308378947, 33188549860307001, 7673110308378947, 17842329243549107),
   (7673110308378947, 35777050701100868, 7673110308378947, 12757719775964027),
   (33234745967308328, 25561635658929381, 7673110308378947, 17888525350550434),
   (20477026191344301, 17888525350550434, 2588500840793867, 17888525350550434),
   (29421288866619518, 8944262675275217, 11532763516069084, 8944262675275217),
   (32599169783860193, 8944262675275217, 14710644433309759, 8944262675275217),
   (20771716229567705, 29715978904842922, 11827453554292488, 8944262675275217),
   (32304479745636789, 8944262675275217, 14415954395086355, 8944262675275217),
   (29568633885731220, 8944262675275217, 11680108535180786, 8944262675275217),
   (32672842293416044, 8944262675275217, 14784316942865610, 8944262675275217),
   (29200271337951965, 8944262675275217, 11311745987401531, 8944262675275217),
   (28016529681888808, 8944262675275217, 10128004331338374, 8944262675275217),
   (31896790191494838, 8944262675275217, 14008264840944404, 8944262675275217),
   (31896790191494838, 12824523184881247, 6247743821732344, 12824523184881247),
   (15948395095747419, 28772918280628666, 15948395095747419, 12824523184881247),
   (15948395095747419, 30334854236061752, 15948395095747419, 14386459140314333),
   (15948395095747419, 31115822213778295, 15948395095747419, 15167427118030876),
   (32677758169211381, 14386459140314333, 3904839888582715, 14386459140314333),
   (23532108654762857, 14386459140314333, 9145649514448524, 14386459140314333),
   (23532108654762857, 18959283897538595, 4572824757224262, 14386459140314333),
   (22864123786121310, 14386459140314333, 8477664645806977, 14386459140314333),
   (25818521033374988, 14386459140314333, 11432061893060655, 14386459140314333),
   (12909260516687494, 27295719657001827, 12909260516687494, 14386459140314333),
   (12909260516687494, 33204514151509183, 12909260516687494, 7385993118134195),
   (6454630258343747, 33204514151509183, 6454630258343747, 13840623376477942),
   (6454630258343747, 32738832721613959, 6454630258343747, 13374941946582718),
   (6454630258343747, 32505992006666347, 6454630258343747, 13142101231635106),
   (32273151291718735, 32505992006666347, 17837026964966791, 232840714947612),
   (32273151291718735, 32389571649192541, 17953447322440597, 116420357473806),
   (32331361470455638, 32389571649192541, 18011657501177500, 58210178736903),
   (32156730934244929, 32447781827929444, 17895237143703694, 291050893684515),
   (32156730934244929, 16223890913964722, 15932840020280207, 16223890913964722),
   (32156730934244929, 8111945456982361, 15932840020280207, 8111945456982361),
   (32156730934244929, 8402996350666876, 15350738232911177, 8402996350666876),
   (32156730934244929, 4201498175333438, 15350738232911177, 4201498175333438),
   (34257480021911648, 2100749087666719, 17451487320577896, 2100749087666719),
   (34738709411221505, 2100749087666719, 17932716709887753, 2100749087666719),
   (35225721950777864, 2100749087666719, 16318980161777393, 2100749087666719),
   (34418853676722684, 2100749087666719, 17612860975388932, 2100749087666719),
   (21410925013694780, 23511674101361499, 17209426838361342, 2100749087666719),
   (19310175926028061, 29813921364361656, 8806430487694466, 10503745438333595),
   (34217136608208889, 14906960682180828, 4403215243847233, 14906960682180828),
   (34217136608208889, 7453480341090414, 11856695584937647, 7453480341090414),
   (19310175926028061, 17957225779424009, 1352950146604052, 17957225779424009),
   (19310175926028061, 18633700852726035, 676475073302026, 17957225779424009),
   (19310175926028061, 18971938389377048, 338237536651013, 17957225779424009),
   (19310175926028061, 17618988242772996, 1691187683255065, 17618988242772996),
   (19310175926028061, 28119670047414559, 10500681804641563, 8809494121386498),
   (19310175926028061, 23714922986721310, 14905428865334812, 4404747060693249),
   (31167637419388716, 11857461493360655, 7452714432667406, 11857461493360655),
   (7452714432667406, 29476449736133651, 7452714432667406, 14571020870798839),
   (3726357216333703, 33202806952467354, 3726357216333703, 14571020870798839),
   (31506832341568489, 27780475125234786, 3726357216333703, 16601403476233677),
   (18631786081668515, 27780475125234786, 9483097038102244, 9148689043566271),
   (32522023644285908, 13890237562617393, 4741548519051122, 13890237562617393),
   (30151249384760347, 13890237562617393, 16261011822142954, 13890237562617393),
   (25744108860245198, 13890237562617393, 11853871297627805, 13890237562617393),
   (26762291992739992, 13890237562617393, 12872054430122599, 13890237562617393),
   (27271383558987389, 13890237562617393, 13381145996369996, 13890237562617393),
   (34471048123419784, 13890237562617393, 6690572998184998, 13890237562617393)]

/-- Exponents from -946. -/
def certs1 : List (Nat × Nat × Nat × Nat) :=
  [(34471048123419784, 34980139689667181, 17671026437255683, 509091566247397),
   (17235524061709892, 34980139689667181, 17235524061709892, 17744615627957289),
   (8617762030854946, 34980139689667181, 8617762030854946, 17744615627957289),
   (25344194526317441, 17744615627957289, 7599578898360152, 17744615627957289),
   (21544405077137365, 17744615627957289, 3799789449180076, 17744615627957289),
   (21544405077137365, 19644510352547327, 1899894724590038, 17744615627957289),
   (25344194526317441, 15844720903367251, 9499473622950190, 15844720903367251),
   (25344194526317441, 20594457714842346, 4749736811475095, 15844720903367251),
   (35641423383738614, 10297228857421173, 15046965668896268, 10297228857421173),
   (28117940549290480, 10297228857421173, 17820711691869307, 10297228857421173),
   (17820711691869307, 33665432595236558, 17820711691869307, 15844720903367251),
   (34653427989487586, 16832716297618279, 17820711691869307, 16832716297618279),
   (17326713994743793, 34159430292362072, 17326713994743793, 16832716297618279),
   (17820711691869307, 33171434898111044, 17820711691869307, 15350723206241737),
   (17820711691869307, 34406429140924829, 17820711691869307, 16585717449055522),
   (26113570416397068, 34406429140924829, 17820711691869307, 8292858724527761),
   (9527852967341546, 31936440655297259, 9527852967341546, 12880734720614167),
   (4763926483670773, 31936440655297259, 4763926483670773, 17644661204284940),
   (32641963020496335, 27878036536825562, 4763926483670773, 13586257085813243),
   (32641963020496335, 13939018268412781, 4763926483670773, 13939018268412781),
   (18702944752083554, 32289201837896797, 5116687666270311, 13586257085813243),
   (9351472376041777, 32289201837896797, 9351472376041777, 13586257085813243),
   (9351472376041777, 30171809483011064, 9351472376041777, 11468864730927510),
   (16585552397197821, 30171809483011064, 16585552397197821, 13586257085813243),
   (31671457138703353, 15085904741505532, 16585552397197821, 15085904741505532),
   (31671457138703353, 7542952370752766, 16585552397197821, 7542952370752766),
   (30127095390719743, 7542952370752766, 15041190649214211, 7542952370752766),
   (33898571576096126, 3771476185376383, 15041190649214211, 3771476185376383),
   (35806666714929978, 3771476185376383, 16949285788048063, 3771476185376383),
   (32989238098970521, 3771476185376383, 17903333357464989, 3771476185376383),
   (32944524006679200, 3771476185376383, 17858619265173668, 3771476185376383),
   (35329642930221515, 3771476185376383, 16472262003339600, 3771476185376383),
   (34636464299304481, 3771476185376383, 15779083372422566, 3771476185376383),
   (30864988113928098, 18857380926881915, 12007607187046183, 6849773739835732),
   (34289874983845964, 18857380926881915, 15432494056964049, 3424886869917866),
   (36002318418804897, 18857380926881915, 17144937491922982, 1712443434958933),
   (36002318418804897, 22282267796799781, 13720050622005116, 8562217174794665),
   (36002318418804897, 29142293107802339, 6860025311002558, 15422242485797223),
   (36002318418804897, 32572305763303618, 3430012655501279, 15422242485797223),
   (36002318418804897, 16286152881651809, 3430012655501279, 16286152881651809),
   (23146178192654367, 29142293107802339, 17150063277506395, 5996114915147972),
   (26144235650228353, 29142293107802339, 17150063277506395, 2998057457573986),
   (26144235650228353, 27643264379015346, 17150063277506395, 1499028728786993),
   (23146178192654367, 30641321836589332, 15651034548719402, 7495143643934965),
   (23146178192654367, 15320660918294666, 7825517274359701, 15320660918294666),
   (30806508651801700, 7660330459147333, 15485847733507034, 7660330459147333),
   (165186815212368, 35989036882763513, 165186815212368, 17983674024615401),
   (82593407606184, 35989036882763513, 82593407606184, 17983674024615401),
   (41296703803092, 35989036882763513, 41296703803092, 17983674024615401),
   (20648351901546, 36009685234665059, 20648351901546, 18004322376516947),
   (103241759507730, 35947740178960421, 103241759507730, 17983674024615401),
   (51620879753865, 35999361058714286, 51620879753865, 17983674024615401),
   (19238581643449903, 19186960763696038, 51620879753865, 17999680529357143),
   (19393444282711498, 19135339883942173, 258104398769325, 17844817890095548),
   (28832062025297922, 19135339883942173, 9696722141355749, 9438617742586424),
   (14416031012648961, 33551370896591134, 14416031012648961, 4719308871293212),
   (34325684092899109, 4719308871293212, 15448448607726261, 4719308871293212),
   (34325684092899109, 2359654435646606, 17808103043372867, 2359654435646606),
   (35505511310722412, 1179827217823303, 17808103043372867, 1179827217823303),
   (35450163922710751, 1179827217823303, 17752755655361206, 1179827217823303),
   (34270336704887448, 5899136089116515, 16572928437537903, 5899136089116515),
   (17135168352443724, 23034304441560239, 17135168352443724, 5899136089116515),
   (8567584176221862, 31601888617782101, 8567584176221862, 14466720265338377),
   (2668448087105347, 34832576619793269, 2668448087105347, 16153440010055840),
   (21418960440554655, 18750512353449308, 2668448087105347, 16082064266343961),
   (21418960440554655, 30794216617279309, 12043704263830001, 9375256176724654),
   (12043704263830001, 34832576619793269, 12043704263830001, 10745168092133267),
   (12043704263830001, 35481844705641636, 12043704263830001, 11394436177981634),
   (29784626616650819, 17740922352820818, 12043704263830001, 17740922352820818),
   (29784626616650819, 8870461176410409, 12043704263830001, 8870461176410409),
   (33607137789918778, 8870461176410409, 15866215437097960, 8870461176410409),
   (34544491247780207, 8870461176410409, 16803568894959389, 8870461176410409),
   (30577937388505717, 8870461176410409, 12837015035684899, 8870461176410409),
   (28703230472782859, 8870461176410409, 10962308119962041, 8870461176410409),
   (27657307001007043, 8870461176410409, 9916384648186225, 8870461176410409),
   (36004806441529544, 8870461176410409, 9393422912298317, 8870461176410409),
   (18263884088708726, 26088421793343319, 10439346384074133, 7824537704634593),
   (9131942044354363, 35220363837697682, 9131942044354363, 16956479748988956),
   (26742123963203204, 17610181918848841, 9131942044354363, 17610181918848841),
   (26742123963203204, 34566661667837797, 11093048553934018, 7824537704634593),
   (13371061981601602, 34566661667837797, 13371061981601602, 7824537704634593),
   (6685530990800801, 34566661667837797, 6685530990800801, 14510068695435394),
   (6685530990800801, 33997158310920901, 6685530990800801, 13940565338518498),
   (33427654954004005, 33997158310920901, 17481560960330917, 569503356916896),
   (33427654954004005, 33712406632462453, 17766312638789365, 284751678458448),
   (33427654954004005, 33570030793233229, 17908688478018589, 142375839229224),
   (33142903275545557, 33854782471691677, 17481560960330917, 711879196146120),
   (33142903275545557, 33498842873618617, 17837500558403977, 355939598073060),
   (33320873074582087, 33498842873618617, 17837500558403977, 177969799036530),
   (32608993878435967, 33498842873618617, 17481560960330917, 889848995182650),
   (33053918376027292, 33498842873618617, 17926485457922242, 444924497591325),
   (16526959188013646, 33498842873618617, 16526959188013646, 16971883685604971),
   (8263479594006823, 33498842873618617, 8263479594006823, 16971883685604971),
   (16082034690422321, 25235363279611794, 16082034690422321, 9153328589189473),
   (28699716330228218, 12617681639805897, 16082034690422321, 12617681639805897),
   (26967539804920006, 12617681639805897, 14349858165114109, 12617681639805897),
   (26967539804920006, 9153328589189473, 17814211215730533, 9153328589189473),
   (13483769902460003, 22637098491649476, 13483769902460003, 9153328589189473),
   (13483769902460003, 24802319148284741, 13483769902460003, 11318549245824738),
   (29132760461555271, 9153328589189473, 10826103283176325, 9153328589189473),
   (29132760461555271, 19143044525372372, 9989715936182899, 9153328589189473),
   (29132760461555271, 9571522262686186, 9989715936182899, 9571522262686186),
   (33918521592898364, 4785761131343093, 14775477067525992, 4785761131343093),
   (29132760461555271, 23928805656715465, 5203954804839806, 13520896047035853),
   (26530783059135368, 23928805656715465, 2601977402419903, 16122873449455756),
   (13265391529567684, 23928805656715465, 13265391529567684, 10663414127147781),
   (15867368931987587, 34592219783863246, 15867368931987587, 2857481919888072),
   (33163478823919210, 17296109891931623, 15867368931987587, 17296109891931623),
   (33877849303891228, 17296109891931623, 16581739411959605, 17296109891931623),
   (32449108343947192, 18010480371903641, 14438627972043551, 18010480371903641),
   (16224554171973596, 34235034543877237, 16224554171973596, 18010480371903641),
   (8112277085986798, 34235034543877237, 8112277085986798, 18010480371903641),
   (4056138542993399, 34235034543877237, 4056138542993399, 18010480371903641),
   (20280692714966995, 34235034543877237, 6326350886056753, 13954341828910242),
   (27257863629422116, 34235034543877237, 13303521800511874, 6977170914455121),
   (13628931814711058, 34235034543877237, 13628931814711058, 6977170914455121),
   (6651760900255937, 34885854572275605, 6651760900255937, 14930571871507794),
   (34072329536777645, 27420568636521708, 6651760900255937, 14117046836009834),
   (34072329536777645, 13710284318260854, 6651760900255937, 13710284318260854),
   (6651760900255937, 35292617090024585, 6651760900255937, 15337334389256774),
   (6651760900255937, 34275710795652135, 6651760900255937, 14320428094884324),
   (20463735847954036, 34275710795652135, 6651760900255937, 13811974947698099),
   (10231867923977018, 34275710795652135, 10231867923977018, 13811974947698099),
   (10231867923977018, 28132403042582423, 10231867923977018, 17900535118605405),
   (5115933961988509, 33248337004570932, 5115933961988509, 17900535118605405),
   (5115933961988509, 31971970388250993, 5115933961988509, 16624168502285466),
   (25579669809942545, 31971970388250993, 12795068653325649, 6392300578308448),
   (25579669809942545, 28775820099096769, 15991218942479873, 3196150289154224)]

/-- Exponents from -818. -/
def certs2 : List (Nat × Nat × Nat × Nat) :=
  [(25579669809942545, 27177744954519657, 17589294087056985, 1598075144577112),
   (19187369231634097, 27177744954519657, 11196993508748537, 7990375722885560),
   (23182557093076877, 27177744954519657, 15192181370191317, 3995187861442780),
   (25180151023798267, 27177744954519657, 17189775300912707, 1997593930721390),
   (25180151023798267, 26178947989158962, 17189775300912707, 998796965360695),
   (24181354058437572, 29175338885241047, 14193384404830622, 4993984826803475),
   (12090677029218786, 29175338885241047, 12090677029218786, 17084661856022261),
   (6045338514609393, 35220677399850440, 6045338514609393, 17084661856022261),
   (6045338514609393, 31015262648626768, 6045338514609393, 12879247104798589),
   (6045338514609393, 33643646868141563, 6045338514609393, 15507631324313384),
   (6045338514609393, 31935169720594264, 6045338514609393, 13799154176766085),
   (30226692573046965, 19844492691375478, 10382199881671487, 9462292809703991),
   (30226692573046965, 9922246345687739, 10382199881671487, 9922246345687739),
   (30226692573046965, 20074469459367352, 10152223113679613, 9922246345687739),
   (30226692573046965, 10037234729683676, 10152223113679613, 10037234729683676),
   (10152223113679613, 29881727421059154, 10152223113679613, 9577281193699928),
   (35245309937888803, 25093086824209190, 10152223113679613, 14940863710529577),
   (35245309937888803, 12546543412104595, 10152223113679613, 12546543412104595),
   (22698766525784208, 17335184008954559, 5363582516829649, 17335184008954559),
   (11349383262892104, 28684567271846663, 11349383262892104, 17335184008954559),
   (5674691631446052, 34359258903292715, 5674691631446052, 17335184008954559),
   (28373458157230260, 11660492377508507, 16712965779721753, 11660492377508507),
   (14186729078615130, 25847221456123637, 14186729078615130, 11660492377508507),
   (7093364539307565, 32940585995431202, 7093364539307565, 11660492377508507),
   (7093364539307565, 30657022076330731, 7093364539307565, 16470292997715601),
   (35466822696537825, 30657022076330731, 4809800620207094, 16227620215709449),
   (33061922386434278, 30657022076330731, 2404900310103547, 16227620215709449),
   (16530961193217139, 30657022076330731, 16530961193217139, 14126060883113592),
   (2404900310103547, 34556799764014755, 2404900310103547, 17722497593289926),
   (2404900310103547, 35315152207783980, 2404900310103547, 16075949726955604),
   (20062476413995537, 17657576103891990, 2404900310103547, 17657576103891990),
   (20062476413995537, 28100451277473339, 12024501550517735, 8037974863477802),
   (20062476413995537, 24081463845734438, 16043488982256636, 4018987431738901),
   (20062476413995537, 32103208336862756, 8021744491128318, 12040731922867219),
   (20062476413995537, 16051604168431378, 4010872245564159, 16051604168431378),
   (24073348659559696, 28092336091298597, 16035373796081894, 4018987431738901),
   (12036674329779848, 28092336091298597, 12036674329779848, 16055661761518749),
   (6018337164889924, 34110673256188521, 6018337164889924, 16055661761518749),
   (30091685824449620, 28092336091298597, 1999349733151023, 16096237692392459),
   (15045842912224810, 28092336091298597, 15045842912224810, 13046493179073787),
   (7522921456112405, 35615257547411002, 7522921456112405, 13046493179073787),
   (32091035557600643, 5523571722961382, 15520320388716497, 5523571722961382),
   (34852821419081334, 2761785861480691, 15520320388716497, 2761785861480691),
   (20188196571021358, 22949982432502049, 17426410709540667, 2761785861480691),
   (14664624848059976, 28473554155463431, 14664624848059976, 13808929307403455),
   (7332312424029988, 35805866579493419, 7332312424029988, 13808929307403455),
   (3666156212014994, 35805866579493419, 3666156212014994, 17475085519418449),
   (1833078106007497, 35805866579493419, 1833078106007497, 17475085519418449),
   (9165390530037485, 35805866579493419, 9165390530037485, 17475085519418449),
   (31651019084802937, 22485628554765452, 9165390530037485, 13320238024727967),
   (31651019084802937, 11242814277382726, 9165390530037485, 11242814277382726),
   (35439833913461220, 2077423747345241, 16743020187354051, 2077423747345241),
   (26029611946111574, 28107035693456815, 17719916956730610, 2077423747345241),
   (13014805973055787, 28107035693456815, 13014805973055787, 15092229720401028),
   (34889570424476879, 15092229720401028, 4705110983674823, 15092229720401028),
   (34889570424476879, 7546114860200514, 12251225843875337, 7546114860200514),
   (34889570424476879, 3773057430100257, 16024283273975594, 3773057430100257),
   (34423543647689596, 3773057430100257, 15558256497188311, 3773057430100257),
   (26877428787489082, 18865287150501285, 8012141636987797, 10853145513513488),
   (13438714393744541, 32304001544245826, 13438714393744541, 5426572756756744),
   (29590715165867454, 16152000772122913, 13438714393744541, 16152000772122913),
   (10725428015366169, 35017287922624198, 10725428015366169, 13566431891891860),
   (28234071976678268, 17508643961312099, 10725428015366169, 17508643961312099),
   (31625679949651233, 17508643961312099, 14117035988339134, 17508643961312099),
   (31625679949651233, 24291859907258029, 7333820042393204, 16958039864864825),
   (31625679949651233, 27958769928454631, 3666910021196602, 16958039864864825),
   (31625679949651233, 29792224939052932, 1833455010598301, 16958039864864825),
   (31625679949651233, 14896112469526466, 16729567480124767, 14896112469526466),
   (1833455010598301, 35978007125068009, 1833455010598301, 17643457019084999),
   (1833455010598301, 35406826163217864, 1833455010598301, 17072276057234854),
   (21370323102805534, 19536868092207233, 1833455010598301, 17703413081608932),
   (1833455010598301, 35346870100693931, 1833455010598301, 17012319994710921),
   (1833455010598301, 35091257651030825, 1833455010598301, 16756707545047815),
   (25796176373207767, 23962721362609466, 1833455010598301, 16628901320216262),
   (27629631383806068, 18462356330814563, 9167275052991505, 9295081277823058),
   (13814815691903034, 32277172022717597, 13814815691903034, 4647540638911529),
   (6907407845951517, 32277172022717597, 6907407845951517, 11554948484863046),
   (6907407845951517, 33407105626237591, 6907407845951517, 12684882088383040),
   (34537039229757585, 5777474242431523, 17204616502463016, 5777474242431523),
   (20157256736094554, 25934730978526077, 14379782493663031, 5777474242431523),
   (10078628368047277, 36013359346573354, 10078628368047277, 15856102610478800),
   (4301154125615754, 33188525337773369, 4301154125615754, 15983908835310353),
   (2150577062807877, 35339102400581246, 2150577062807877, 15983908835310353),
   (26271859451522131, 24121282388714254, 2150577062807877, 17669551200290623),
   (32723590639945762, 21970705325906377, 10752885314039385, 11217820011866992),
   (16361795319972881, 21970705325906377, 16361795319972881, 5608910005933496),
   (19166250322939629, 21970705325906377, 16361795319972881, 2804455002966748),
   (19166250322939629, 20568477824423003, 17764022821456255, 1402227501483374),
   (34125818141429136, 20568477824423003, 13557340317006133, 7011137507416870),
   (17062909070714568, 20568477824423003, 17062909070714568, 3505568753708435),
   (29099932359780287, 20568477824423003, 8531454535357284, 12037023289065719),
   (5025885781648849, 32605501113488722, 5025885781648849, 17527843768542175),
   (21328636338393210, 16302750556744361, 5025885781648849, 16302750556744361),
   (26967068725940966, 16302750556744361, 10664318169196605, 16302750556744361),
   (15690203950845454, 21941182944292117, 15690203950845454, 6250978993446663),
   (7845101975422727, 29786284919714844, 7845101975422727, 14096080968869390),
   (22738244435280149, 14893142459857422, 7845101975422727, 14893142459857422),
   (30184815665208860, 7446571229928711, 15291673205351438, 7446571229928711),
   (7845101975422727, 29387754174220828, 7845101975422727, 13697550223375374),
   (22538979062533141, 14693877087110414, 7845101975422727, 14693877087110414),
   (22538979062533141, 29885917606088348, 15192040518977934, 7346938543555207),
   (15192040518977934, 21542652198798101, 15192040518977934, 6350611679820167),
   (7596020259488967, 29138672458287068, 7596020259488967, 13946631939309134),
   (7596020259488967, 29761376748121468, 7596020259488967, 14569336229143534),
   (31006785327790268, 6973315969654567, 17060153388481134, 6973315969654567),
   (22476708633549701, 29450024603204268, 15503392663895134, 6973315969654567),
   (22476708633549701, 14725012301602134, 7751696331947567, 14725012301602134),
   (22476708633549701, 29839214784350768, 15114202482748634, 7362506150801067),
   (22865898814696201, 29839214784350768, 15892582845041634, 6973315969654567),
   (22865898814696201, 14919607392175384, 7946291422520817, 14919607392175384),
   (30325702510783893, 7459803696087692, 15406095118608509, 7459803696087692),
   (32271653416516393, 7459803696087692, 17352046024341009, 7459803696087692),
   (36001555264560239, 3729901848043846, 17352046024341009, 3729901848043846),
   (36001555264560239, 1864950924021923, 17352046024341009, 1864950924021923),
   (34541604249091201, 1864950924021923, 17757045932893894, 1864950924021923),
   (34987835902753869, 1864950924021923, 16338326662534639, 1864950924021923),
   (35210951729585203, 1864950924021923, 16561442489365973, 1864950924021923),
   (35322509643000870, 1864950924021923, 16673000402781640, 1864950924021923),
   (29727656870935101, 9324754620109615, 11078147630715871, 9324754620109615),
   (28850960365631973, 9324754620109615, 10201451125412743, 9324754620109615),
   (28412612112980409, 9324754620109615, 9763102872761179, 9324754620109615),
   (28412612112980409, 18211160987567666, 10201451125412743, 8009709862154923),
   (28412612112980409, 9105580493783833, 10201451125412743, 9105580493783833),
   (18759096303382121, 27864676797165954, 9653515809598288, 9105580493783833),
   (28412612112980409, 8557645177969378, 11297321757041653, 8557645177969378),
   (28412612112980409, 32691434701965098, 15576144346026342, 4278822588984689),
   (28412612112980409, 16345717350982549, 12066894761997860, 16345717350982549),
   (22379164731981479, 16345717350982549, 6033447380998930, 16345717350982549)]

/-- Exponents from -690. -/
def certs3 : List (Nat × Nat × Nat × Nat) :=
  [(30167236904994650, 16345717350982549, 13821519554012101, 16345717350982549),
   (31429335803479874, 16345717350982549, 15083618452497325, 16345717350982549),
   (32060385252722486, 16345717350982549, 15714667901739937, 16345717350982549),
   (15714667901739937, 34584583049692934, 15714667901739937, 3155247246213060),
   (15714667901739937, 33006959426586404, 15714667901739937, 17292291524846467),
   (32218147615033139, 16503479713293202, 15714667901739937, 16503479713293202),
   (32218147615033139, 18081103336399732, 14137044278633407, 3944059057766325),
   (32218147615033139, 9040551668199866, 14137044278633407, 9040551668199866),
   (32218147615033139, 4520275834099933, 14137044278633407, 4520275834099933),
   (32218147615033139, 18369211724566536, 13848935890466603, 4520275834099933),
   (32218147615033139, 27409763392766402, 4808384222266737, 17792994948232928),
   (32218147615033139, 13704881696383201, 4808384222266737, 13704881696383201),
   (32218147615033139, 22961514655708170, 9256632959324969, 13704881696383201),
   (4808384222266737, 31858012129824634, 4808384222266737, 17432859463024423),
   (20737390287179054, 15929006064912317, 4808384222266737, 15929006064912317),
   (10368695143589527, 26297701208501844, 10368695143589527, 15929006064912317),
   (35914469653035318, 15929006064912317, 4056457523210684, 15929006064912317),
   (17957234826517659, 33886240891429976, 17957234826517659, 15929006064912317),
   (34900355272232647, 16943120445714988, 17957234826517659, 16943120445714988),
   (17957234826517659, 30843897749021963, 17957234826517659, 12886662922504304),
   (17957234826517659, 24400566287769811, 17957234826517659, 6443331461252152),
   (17957234826517659, 21178900557143735, 17957234826517659, 3221665730626076),
   (19568067691830697, 21178900557143735, 17957234826517659, 1610832865313038),
   (14735569095891583, 22789733422456773, 14735569095891583, 8054164326565190),
   (18762651259174178, 22789733422456773, 14735569095891583, 4027082163282595),
   (9381325629587089, 32171059052043862, 9381325629587089, 13408407792869684),
   (14735569095891583, 32171059052043862, 14735569095891583, 17435489956152279),
   (30821098621913514, 16085529526021931, 14735569095891583, 16085529526021931),
   (31496078836978688, 16085529526021931, 15410549310956757, 16085529526021931),
   (15410549310956757, 34195999697239384, 15410549310956757, 3374901075325870),
   (15410549310956757, 32508549159576449, 15410549310956757, 17097999848619692),
   (23959549235266603, 32508549159576449, 15410549310956757, 8548999924309846),
   (23959549235266603, 28234049197421526, 15410549310956757, 4274499962154923),
   (34307746933234555, 4274499962154923, 17209747084614863, 4274499962154923),
   (32114623334159508, 4274499962154923, 15016623485539816, 4274499962154923),
   (28880811553544523, 33155311515699446, 16057311667079754, 4274499962154923),
   (11782811704924831, 33155311515699446, 11782811704924831, 9589688105849784),
   (28360467462774554, 16577655757849723, 11782811704924831, 16577655757849723),
   (30757889489237000, 16577655757849723, 14180233731387277, 16577655757849723),
   (14180233731387277, 26167343863699507, 14180233731387277, 11987110132312230),
   (14180233731387277, 34354022528930669, 14180233731387277, 5993555066156115),
   (24267128130158973, 34354022528930669, 14180233731387277, 10086894398771696),
   (24267128130158973, 29310575329544821, 14180233731387277, 5043447199385848),
   (24267128130158973, 25217235996929240, 17616373062767104, 950107866770267),
   (24267128130158973, 12608617998464620, 11658510131694353, 12608617998464620),
   (24267128130158973, 30571437129391283, 17962819130926663, 6304308999232310),
   (5354201132462043, 31521544996161550, 5354201132462043, 15458941598775421),
   (21114973630542818, 15760772498080775, 5354201132462043, 15760772498080775),
   (10557486815271409, 26318259313352184, 10557486815271409, 15760772498080775),
   (15911687947733452, 20964058180890141, 15911687947733452, 5052370233156689),
   (7955843973866726, 28919902154756867, 7955843973866726, 13008214207023415),
   (3977921986933363, 32897824141690230, 3977921986933363, 16986136193956778),
   (24404756044711841, 20426834057778478, 3977921986933363, 16448912070845115),
   (3977921986933363, 34509496511025219, 3977921986933363, 14619886576358404),
   (3977921986933363, 35155397196712743, 3977921986933363, 15265787262045928),
   (31500425552623142, 27522503565689779, 3977921986933363, 15588737604889690),
   (19889609934666815, 19566659591823053, 322950342843762, 17951907877604243),
   (19728134763244934, 19566659591823053, 161475171421881, 17951907877604243),
   (9864067381622467, 29430726973445520, 9864067381622467, 9702592210200586),
   (29753677316289282, 19566659591823053, 10187017724466229, 9379641867356824),
   (34443498249967694, 19566659591823053, 14876838658144641, 4689820933678412),
   (17221749124983847, 19566659591823053, 17221749124983847, 2344910466839206),
   (17221749124983847, 35615953483387297, 17221749124983847, 1172455233419603),
   (14876838658144641, 35615953483387297, 14876838658144641, 5862276167098015),
   (25246396070765969, 35615953483387297, 14876838658144641, 10369557412621328),
   (30431174777076633, 35615953483387297, 14876838658144641, 5184778706310664),
   (9692059951833977, 35615953483387297, 9692059951833977, 16231833579719343),
   (22654006717610637, 35615953483387297, 9692059951833977, 12961946765776660),
   (29134980100498967, 35615953483387297, 16173033334722307, 6480973382888330),
   (9692059951833977, 32404866914441650, 9692059951833977, 13020747010773696),
   (25894493409054802, 16202433457220825, 9692059951833977, 16202433457220825),
   (12947246704527401, 29149680161748226, 12947246704527401, 16202433457220825),
   (12947246704527401, 27522086785401514, 12947246704527401, 14574840080874113),
   (35439552748396189, 1627593376346712, 17536025608582357, 1627593376346712),
   (35439552748396189, 813796688173356, 17536025608582357, 813796688173356),
   (35846451092482867, 406898344086678, 17942923952669035, 406898344086678),
   (36004038343903679, 406898344086678, 17693612860003169, 406898344086678),
   (36004038343903679, 203449172043339, 17897062032046508, 203449172043339),
   (36007270897787341, 203449172043339, 17900294585930170, 203449172043339),
   (36007270897787341, 1017245860216695, 17696845413886831, 1017245860216695),
   (35805438002685833, 1017245860216695, 17495012518785323, 1017245860216695),
   (35704521555135079, 1017245860216695, 17394096071234569, 1017245860216695),
   (20395375428109277, 21412621288325972, 17343637847459192, 1017245860216695),
   (20395375428109277, 25481604729192752, 15309146127025802, 5086229301083475),
   (20395375428109277, 33136177792705653, 7654573063512901, 12740802364596376),
   (20395375428109277, 26765776610407465, 14024974245811089, 6370401182298188),
   (7654573063512901, 31852005911490940, 7654573063512901, 16542859784465138),
   (23580576019258371, 15926002955745470, 7654573063512901, 15926002955745470),
   (23580576019258371, 31543577497131106, 15617574541385636, 7963001477872735),
   (23272147604898537, 31543577497131106, 15000717712665968, 8271429892232569),
   (23272147604898537, 15771788748565553, 7500358856332984, 15771788748565553),
   (35293756925297598, 15771788748565553, 3750179428166492, 15771788748565553),
   (17646878462648799, 33418667211214352, 17646878462648799, 15771788748565553),
   (23272147604898537, 13896699034482307, 9375448570416230, 13896699034482307),
   (18584423319690422, 32481122354172729, 4687724285208115, 13896699034482307),
   (9292211659845211, 32481122354172729, 9292211659845211, 13896699034482307),
   (32564359264743748, 13896699034482307, 4770961195779134, 13896699034482307),
   (30178878666854181, 13896699034482307, 16282179632371874, 13896699034482307),
   (30178878666854181, 22037788850668244, 8141089816185937, 13896699034482307),
   (30178878666854181, 19652308252778677, 10526570414075504, 9125737838703173),
   (30178878666854181, 24915593459816429, 5263285207037752, 14389023045740925),
   (30178878666854181, 27547236063335305, 2631642603518876, 17020665649259801),
   (30178878666854181, 28863057365094743, 1315821301759438, 17020665649259801),
   (35442163873891933, 28863057365094743, 6579106508797190, 15704844347500363),
   (32152610619493338, 28863057365094743, 3289553254398595, 15704844347500363),
   (16076305309746669, 28863057365094743, 16076305309746669, 12786752055348074),
   (22655411818543859, 28863057365094743, 16447766271992975, 6207645546550884),
   (25759234591819301, 28863057365094743, 16447766271992975, 3103822773275442),
   (27311145978457022, 28863057365094743, 17999677658630696, 1551911386637721),
   (27311145978457022, 35070702911645627, 11792032112079812, 7759556933188605),
   (13655572989228511, 35070702911645627, 13655572989228511, 7759556933188605),
   (13655572989228511, 24363137950437069, 13655572989228511, 10707564961208558),
   (16603581017248464, 35070702911645627, 16603581017248464, 1863540877148699),
   (8301790508624232, 35070702911645627, 8301790508624232, 10165331385772931),
   (4150895254312116, 35070702911645627, 4150895254312116, 14316226640085047),
   (2075447627156058, 35070702911645627, 2075447627156058, 16391674267241105),
   (10377238135780290, 35070702911645627, 10377238135780290, 14316226640085047),
   (5188619067890145, 35070702911645627, 5188619067890145, 14316226640085047),
   (30506899125548176, 25318280057658031, 5188619067890145, 14941041921877741),
   (35695518193438321, 9752422853987596, 16190672485463129, 9752422853987596),
   (35695518193438321, 4876211426993798, 16190672485463129, 4876211426993798),
   (35695518193438321, 2438105713496899, 16190672485463129, 2438105713496899),
   (34629353870874564, 2438105713496899, 17562613876396271, 2438105713496899),
   (34381416929915575, 2438105713496899, 17314676935437282, 2438105713496899),
   (35476501316184530, 2438105713496899, 15971655608209338, 2438105713496899),
   (22614462085086063, 25052567798582962, 17738250658092265, 2438105713496899),
   (12862039231098467, 25052567798582962, 12862039231098467, 12190528567484495),
   (25388323130389948, 12526283899291481, 12862039231098467, 12526283899291481)]

/-- Exponents from -562. -/
def certs4 : List (Nat × Nat × Nat × Nat) :=
  [(25220445464486455, 12526283899291481, 12694161565194974, 12526283899291481),
   (25556200796293441, 12358406233387988, 13197794562905453, 12358406233387988),
   (31735403912987435, 6179203116693994, 13197794562905453, 6179203116693994),
   (34825005471334432, 3089601558346997, 16287396121252450, 3089601558346997),
   (25556200796293441, 15448007791734985, 10108193004558456, 15448007791734985),
   (20502104294014213, 35950112085749198, 5054096502279228, 15448007791734985),
   (20502104294014213, 17975056042874599, 2527048251139614, 17975056042874599),
   (19238580168444406, 17975056042874599, 1263524125569807, 17975056042874599),
   (20502104294014213, 34686587960179391, 6317620627849035, 14184483666165178),
   (20502104294014213, 27594346127096802, 13409862460931624, 7092241833082589),
   (34299277357562614, 13797173063548401, 6704931230465812, 13797173063548401),
   (33524656152329060, 13797173063548401, 5930310025232258, 13797173063548401),
   (30559501139712931, 13797173063548401, 16762328076164530, 13797173063548401),
   (35975510165179067, 13797173063548401, 8381164038082265, 13797173063548401),
   (28108647126862924, 13797173063548401, 14311474063314523, 13797173063548401),
   (27851496626979863, 13797173063548401, 14054323563431462, 13797173063548401),
   (34621507908812533, 13797173063548401, 7027161781715731, 13797173063548401),
   (24209340486180467, 13797173063548401, 10412167422632066, 13797173063548401),
   (10412167422632066, 27337195627213741, 10412167422632066, 16925028204581675),
   (5206083711316033, 32543279338529774, 5206083711316033, 16925028204581675),
   (5206083711316033, 31889890803212986, 5206083711316033, 16271639669264887),
   (26030418556580165, 16271639669264887, 9758778887315278, 16271639669264887),
   (21151029112922526, 16271639669264887, 4879389443657639, 16271639669264887),
   (10575514556461263, 26847154225726150, 10575514556461263, 16271639669264887),
   (20334293443776541, 16271639669264887, 4062653774511654, 16271639669264887),
   (18302966556520714, 34574606225785601, 2031326887255827, 16271639669264887),
   (9151483278260357, 34574606225785601, 9151483278260357, 16271639669264887),
   (21863044752022979, 34574606225785601, 9151483278260357, 12711561473762622),
   (31014528030283336, 16271639669264887, 14742888361018449, 16271639669264887),
   (15507264015141668, 31778903684406555, 15507264015141668, 16271639669264887),
   (7753632007570834, 31778903684406555, 7753632007570834, 16271639669264887),
   (22496520368589283, 16271639669264887, 6224880699324396, 16271639669264887),
   (19384080018927085, 35655719688191972, 3112440349662198, 16271639669264887),
   (19384080018927085, 17827859844095986, 1556220174831099, 17827859844095986),
   (24052740543420382, 16271639669264887, 7781100874155495, 16271639669264887),
   (28298009940975078, 16271639669264887, 12026370271710191, 16271639669264887),
   (14149004970487539, 30420644639752426, 14149004970487539, 16271639669264887),
   (14149004970487539, 29359327290363752, 14149004970487539, 15210322319876213),
   (25114057892809056, 15210322319876213, 9903735572932843, 15210322319876213),
   (27767351266280741, 15210322319876213, 12557028946404528, 15210322319876213),
   (27767351266280741, 21488836793078477, 6278514473202264, 15210322319876213),
   (31392572366011320, 21488836793078477, 9903735572932843, 11585101220145634),
   (15696286183005660, 21488836793078477, 15696286183005660, 5792550610072817),
   (29336979884581307, 21488836793078477, 7848143091502830, 13640693701575647),
   (33448164847441333, 5792550610072817, 16070513017222882, 5792550610072817),
   (25412908338829892, 31205458948902709, 13827807118684258, 5792550610072817),
   (12706454169414946, 31205458948902709, 12706454169414946, 5792550610072817),
   (6353227084707473, 31205458948902709, 6353227084707473, 12145777694780290),
   (6353227084707473, 35315980135071558, 6353227084707473, 16256298880949139),
   (6353227084707473, 30364444236950725, 6353227084707473, 17657990067535779),
   (6353227084707473, 31065289830244045, 6353227084707473, 12005608576121626),
   (31766135423537365, 24712062745536572, 7054072678000793, 17657990067535779),
   (31766135423537365, 12356031372768286, 7054072678000793, 12356031372768286),
   (31766135423537365, 6178015686384143, 13232088364384936, 6178015686384143),
   (35270363390003965, 6178015686384143, 16736316330851536, 6178015686384143),
   (33080220910962340, 6178015686384143, 14546173851809911, 6178015686384143),
   (35074157514633599, 6178015686384143, 16540110455481170, 6178015686384143),
   (20626086600508871, 26804102286893014, 14448070914124728, 6178015686384143),
   (35172260452318782, 6178015686384143, 16638213393166353, 6178015686384143),
   (29942161598927677, 6178015686384143, 17586130226159391, 6178015686384143),
   (24238104329040053, 30416120015424196, 11882072956271767, 6178015686384143),
   (34698302035822263, 6178015686384143, 16164254976669834, 6178015686384143),
   (32794190233871489, 6178015686384143, 14260143174719060, 6178015686384143),
   (31842134332896102, 6178015686384143, 13308087273743673, 6178015686384143),
   (19486102960127816, 30890078431920715, 8082127488334917, 11403975471792899),
   (9743051480063908, 30890078431920715, 9743051480063908, 11403975471792899),
   (4871525740031954, 35761604171952669, 4871525740031954, 16275501211824853),
   (2435762870015977, 35761604171952669, 2435762870015977, 16275501211824853),
   (12178814350079885, 35761604171952669, 12178814350079885, 11403975471792899),
   (12178814350079885, 23970209261016277, 12178814350079885, 11791394910936392),
   (18074511805548081, 23970209261016277, 12178814350079885, 5895697455468196),
   (18074511805548081, 29478487277340980, 6670536333755182, 11403975471792899),
   (18074511805548081, 32813755444218571, 3335268166877591, 14739243638670490),
   (18074511805548081, 25444133624883326, 10704889986212836, 7369621819335245),
   (18074511805548081, 18773597291128144, 17375426319968018, 699085485580063),
   (18074511805548081, 27461310451112153, 8687713159984009, 9386798645564072),
   (18074511805548081, 22767911128330117, 13381112482766045, 4693399322782036),
   (18074511805548081, 23466996613910180, 12682026997185982, 5392484808362099),
   (18074511805548081, 29808010112503171, 6341013498592991, 11733498306955090),
   (18074511805548081, 23941260959025626, 12207762652070536, 5866749153477545),
   (18074511805548081, 30045142285060894, 6103881326035268, 11970630479512813),
   (18074511805548081, 23704128786467903, 12444894824628259, 5629616980919822),
   (18074511805548081, 20889320296007992, 15259703315088170, 2814808490459911),
   (18074511805548081, 28519171953552077, 7629851657544085, 10444660148003996),
   (18074511805548081, 34148788934471899, 2000234676624263, 16074277128923818),
   (18074511805548081, 26111650370009990, 10037373241086172, 8037138564461909),
   (18074511805548081, 31130336990553076, 5018686620543086, 13055825185004995),
   (33130571667177339, 8037138564461909, 17056294538253521, 8037138564461909),
   (20583855115819624, 28620993680281533, 12546716551357715, 8037138564461909),
   (10291927557909812, 28620993680281533, 10291927557909812, 8037138564461909),
   (5145963778954906, 33766957459236439, 5145963778954906, 13183102343416815),
   (5145963778954906, 35039729043354639, 5145963778954906, 14455873927535015),
   (2572981889477453, 35039729043354639, 2572981889477453, 17028855817012468),
   (2572981889477453, 34244246803280764, 2572981889477453, 16233373576938593),
   (12864909447387265, 29098283024325858, 12864909447387265, 16233373576938593),
   (12864909447387265, 27414050959550194, 12864909447387265, 14549141512162929),
   (12864909447387265, 26571934927162362, 12864909447387265, 13707025479775097),
   (11180677382611601, 26571934927162362, 11180677382611601, 15391257544550761),
   (24466644846192782, 13285967463581181, 11180677382611601, 13285967463581181),
   (25519289886677572, 13285967463581181, 12233322423096391, 13285967463581181),
   (26045612406919967, 13285967463581181, 12759644943338786, 13285967463581181),
   (24992967366435177, 13812289983823576, 11180677382611601, 13812289983823576),
   (31899112358346965, 6906144991911788, 11180677382611601, 6906144991911788),
   (35352184854302859, 3453072495955894, 14633749878567495, 3453072495955894),
   (24992967366435177, 17265362479779470, 7727604886655707, 17265362479779470),
   (33625648606324912, 8632681239889735, 16360286126545442, 8632681239889735),
   (16812824303162456, 25445505543052191, 16812824303162456, 8632681239889735),
   (8180143063272721, 34983263136175954, 8180143063272721, 10442833946357791),
   (33851917694633419, 25671774631360698, 8180143063272721, 17491631568087977),
   (33851917694633419, 12835887315680349, 8180143063272721, 12835887315680349),
   (33851917694633419, 23343902505156884, 10508015189476535, 12835887315680349),
   (8180143063272721, 27999646757564512, 8180143063272721, 11639360631019070),
   (22179966442054977, 13999823378782256, 8180143063272721, 13999823378782256),
   (22179966442054977, 29179878131446105, 15180054752663849, 6999911689391128),
   (8180143063272721, 34999558446955640, 8180143063272721, 10459129257137477),
   (33860065350023262, 25679922286750541, 8180143063272721, 17499779223477820),
   (16930032675011631, 25679922286750541, 16930032675011631, 8749889611738910),
   (25110175738284352, 34429811898489451, 15790539578079253, 9319636160205099),
   (12555087869142176, 34429811898489451, 12555087869142176, 9319636160205099),
   (6277543934571088, 34429811898489451, 6277543934571088, 15597180094776187),
   (3138771967285544, 34429811898489451, 3138771967285544, 15597180094776187),
   (15693859836427720, 31291039931203907, 15693859836427720, 15597180094776187),
   (7846929918213860, 31291039931203907, 7846929918213860, 15597180094776187),
   (3923464959106930, 35214504890310837, 3923464959106930, 15597180094776187),
   (19617324795534650, 35214504890310837, 4020144700758463, 15597180094776187),
   (9808662397767325, 35214504890310837, 9808662397767325, 15597180094776187),
   (22511583644039081, 35214504890310837, 9808662397767325, 12702921246271756),
   (22511583644039081, 18491438943280618, 4020144700758463, 14471294242522155)]

/-- Exponents from -434. -/
def certs5 : List (Nat × Nat × Nat × Nat) :=
  [(22511583644039081, 31757303115679390, 13265864172398772, 9245719471640309),
   (22511583644039081, 15878651557839695, 6632932086199386, 15878651557839695),
   (22511583644039081, 19195117600939388, 3316466043099693, 15878651557839695),
   (25828049687138774, 35073769158779083, 16582330215498465, 9245719471640309),
   (12914024843569387, 35073769158779083, 12914024843569387, 9245719471640309),
   (12914024843569387, 23993897001174235, 12914024843569387, 11079872157604848),
   (1834152685964539, 35223681242414311, 1834152685964539, 16882154382768921),
   (31367985765941198, 29533833079976659, 1834152685964539, 16694764278224886),
   (15683992882970599, 29533833079976659, 15683992882970599, 13849840197006060),
   (1834152685964539, 34400299951704059, 1834152685964539, 17892925778023208),
   (1834152685964539, 34624600492515150, 1834152685964539, 16283073632869760),
   (20980605618186653, 19146452932222114, 1834152685964539, 17312300246257575),
   (30553832084297710, 9573226466111057, 11407379152075596, 9573226466111057),
   (11407379152075596, 25051374026404093, 11407379152075596, 13643994874328497),
   (5703689576037798, 30755063602441891, 5703689576037798, 13643994874328497),
   (2851844788018899, 33606908390460790, 2851844788018899, 16495839662347396),
   (14259223940094495, 22199529238385194, 14259223940094495, 7940305298290699),
   (14259223940094495, 25358988559287092, 14259223940094495, 11099764619192597),
   (26938718219738041, 12679494279643546, 14259223940094495, 12679494279643546),
   (15838953600545444, 23779258898836143, 15838953600545444, 7940305298290699),
   (7919476800272722, 31698735699108865, 7919476800272722, 15859782098563421),
   (35658474099245226, 31698735699108865, 3959738400136361, 15859782098563421),
   (17829237049622613, 31698735699108865, 17829237049622613, 13869498649486252),
   (17829237049622613, 33689019148186034, 17829237049622613, 15859782098563421),
   (17829237049622613, 34673746623715630, 17829237049622613, 16844509574093017),
   (17829237049622613, 35166110361480428, 17829237049622613, 17336873311857815),
   (18321600787387411, 34181382885950832, 2461818688823990, 15859782098563421),
   (35412292230362827, 17090691442975416, 1230909344411995, 17090691442975416),
   (35412292230362827, 8545345721487708, 9776255065899703, 8545345721487708),
   (35412292230362827, 7314436377075713, 13468983099135688, 7314436377075713),
   (35412292230362827, 21363364303719270, 14048927926643557, 7314436377075713),
   (35412292230362827, 10681682151859635, 14048927926643557, 10681682151859635),
   (35412292230362827, 23046987191111231, 12365305039251596, 10681682151859635),
   (35412292230362827, 8998059264467674, 17416173701427479, 8998059264467674),
   (35412292230362827, 4499029632233837, 17416173701427479, 4499029632233837),
   (35412292230362827, 19955660931298332, 15456631299064495, 4499029632233837),
   (17416173701427479, 19955660931298332, 17416173701427479, 2539487229870853),
   (27394004167076645, 9977830465649166, 17416173701427479, 9977830465649166),
   (32382919399901228, 4988915232824583, 17416173701427479, 4988915232824583),
   (32202800946066982, 4988915232824583, 17236055247593233, 4988915232824583),
   (31068146171507240, 4988915232824583, 16101400473033491, 4988915232824583),
   (35489734017051952, 4988915232824583, 15534073085753620, 4988915232824583),
   (32711612706999725, 4988915232824583, 17744867008525976, 4988915232824583),
   (17744867008525976, 24944576164122915, 17744867008525976, 7199709155596939),
   (33817009668385903, 24944576164122915, 8872433504262988, 16072142659859927),
   (29380792916254409, 24944576164122915, 4436216752131494, 16072142659859927),
   (29380792916254409, 7199709155596939, 14981374605060531, 7199709155596939),
   (29380792916254409, 18290251035925674, 11090541880328735, 7199709155596939),
   (29380792916254409, 9145125517962837, 11090541880328735, 9145125517962837),
   (1945416362365898, 35998545777984695, 1945416362365898, 16544382154325715),
   (972708181182949, 35998545777984695, 972708181182949, 17517090335508664),
   (25294584247864465, 24321876066681516, 972708181182949, 17512918798400873),
   (29185416972596261, 24321876066681516, 4863540905914745, 14594794254852026),
   (29185416972596261, 12160938033340758, 17024478939255503, 12160938033340758),
   (35265885989266640, 6080469016670379, 17024478939255503, 6080469016670379),
   (35874350044644457, 6080469016670379, 17632942994633320, 6080469016670379),
   (29793881027974078, 30402345083351895, 17624599920417738, 608464055377817),
   (14896940513987039, 30402345083351895, 14896940513987039, 15505404569364856),
   (22649642798669467, 30402345083351895, 14896940513987039, 7752702284682428),
   (7144238229304611, 31619273194107529, 7144238229304611, 17330796735498307),
   (26525993941010681, 19381755711706070, 7144238229304611, 12237517482401459),
   (26525993941010681, 9690877855853035, 16835116085157646, 9690877855853035),
   (26525993941010681, 21928395338254494, 4597598602756187, 17330796735498307),
   (26525993941010681, 10964197669127247, 15561796271883434, 10964197669127247),
   (26525993941010681, 18745095805068964, 7780898135941717, 10964197669127247),
   (26525993941010681, 35898541843545163, 17153446038476199, 9372547902534482),
   (24934344174417916, 35898541843545163, 13970146505290669, 10964197669127247),
   (12467172087208958, 35898541843545163, 12467172087208958, 10964197669127247),
   (6233586043604479, 35898541843545163, 6233586043604479, 17197783712731726),
   (31167930218022395, 29664955799940684, 1502974418081711, 17641160455286996),
   (31167930218022395, 14832477899970342, 16335452318052053, 14832477899970342),
   (31167930218022395, 7416238949985171, 16335452318052053, 7416238949985171),
   (8919213368066882, 28161981381858973, 8919213368066882, 10323554645725209),
   (4459606684033441, 32621588065892414, 4459606684033441, 14783161329758650),
   (20770400716979648, 16310794032946207, 4459606684033441, 16310794032946207),
   (10385200358489824, 26695994391436031, 10385200358489824, 16310794032946207),
   (4459606684033441, 34087575056315356, 4459606684033441, 16249148320181592),
   (25963000896224560, 21503394212191119, 4459606684033441, 17043787528157678),
   (12981500448112280, 34484894660303399, 12981500448112280, 8521893764078839),
   (30819927184246044, 8521893764078839, 13776139656088366, 8521893764078839),
   (32453751120280700, 8521893764078839, 15409963592123022, 8521893764078839),
   (16226875560140350, 24748769324219189, 16226875560140350, 8521893764078839),
   (7704981796061511, 34904487024332684, 7704981796061511, 11789541636148151),
   (7704981796061511, 32862207104289364, 7704981796061511, 17452243512166342),
   (24136085348206193, 16431103552144682, 7704981796061511, 16431103552144682),
   (32351637124278534, 8215551776072341, 15920533572133852, 8215551776072341),
   (15920533572133852, 25157225308227853, 15920533572133852, 9236691736094001),
   (7960266786066926, 33117492094294779, 7960266786066926, 17196958522160927),
   (3980133393033463, 33117492094294779, 3980133393033463, 17196958522160927),
   (3980133393033463, 34243058501369616, 3980133393033463, 14342391536202301),
   (3980133393033463, 33042062822818660, 3980133393033463, 17121529250684808),
   (3980133393033463, 32441564983543182, 3980133393033463, 16521031411409330),
   (19900666965167315, 28461431590509719, 11339902339824911, 8560764625342404),
   (19900666965167315, 24181049277838517, 15620284652496113, 4280382312671202),
   (22040858121502916, 24181049277838517, 17760475808831714, 2140191156335601),
   (11020429060751458, 35201478338589975, 11020429060751458, 13160620217087059),
   (30921096025918773, 24181049277838517, 6740046748080256, 17441002529758261),
   (27551072651878645, 24181049277838517, 3370023374040128, 17441002529758261),
   (27551072651878645, 25866060964858581, 1685011687020064, 17441002529758261),
   (29236084338898709, 20811025903798389, 8425058435100320, 12385967468698069),
   (29236084338898709, 25023555121348549, 4212529217550160, 16598496686248229),
   (27129819730123629, 25023555121348549, 2106264608775080, 16598496686248229),
   (35554878165223949, 25023555121348549, 10531323043875400, 14492232077473149),
   (30289216643286249, 25023555121348549, 5265661521937700, 14492232077473149),
   (27656385882317399, 25023555121348549, 2632830760968850, 17125062838441999),
   (27656385882317399, 26339970501832974, 1316415380484425, 17125062838441999),
   (31605632023770674, 25023555121348549, 6582076902422125, 11859401316504299),
   (15802816011885337, 25023555121348549, 15802816011885337, 9220739109463212),
   (20413185566616943, 25023555121348549, 15802816011885337, 4610369554731606),
   (15802816011885337, 23051847773658030, 15802816011885337, 7249031761772693),
   (15802816011885337, 27328739898714352, 15802816011885337, 11525923886829015),
   (29467185961242513, 13664369949357176, 15802816011885337, 13664369949357176),
   (15802816011885337, 20913401711129869, 15802816011885337, 5110585699244532),
   (15802816011885337, 34160924873392940, 15802816011885337, 2555292849622266),
   (32883278448581807, 17080462436696470, 15802816011885337, 17080462436696470),
   (32883278448581807, 8540231218348235, 15802816011885337, 8540231218348235),
   (35035277542874377, 1277646424811133, 17148227595518515, 1277646424811133),
   (20711754833465021, 21989401258276154, 16878815559031622, 1277646424811133),
   (20711754833465021, 31706455462603098, 9717054204326944, 10994700629138077),
   (26595869763358566, 10994700629138077, 15601169134220489, 10994700629138077),
   (35287336139955437, 10994700629138077, 13297934881679283, 10994700629138077),
   (23141018384546757, 34135719013684834, 12146317755408680, 10994700629138077),
   (27747486889629169, 10994700629138077, 16752786260491092, 10994700629138077),
   (30365794388521700, 10994700629138077, 8376393130245546, 10994700629138077),
   (26177597823398927, 10994700629138077, 15182897194260850, 10994700629138077),
   (26177597823398927, 18586149226268502, 7591448597130425, 10994700629138077),
   (34553990953644473, 3403252032007652, 17537730793606213, 3403252032007652),
   (34553990953644473, 1701626016003826, 17537730793606213, 1701626016003826)]

/-- Exponents from -306. -/
def certs6 : List (Nat × Nat × Nat × Nat) :=
  [(35404803961646386, 850813008001913, 17537730793606213, 850813008001913),
   (35404803961646386, 4254065040009565, 14134478761598561, 4254065040009565),
   (21956467020832758, 26210532060842323, 17702401980823193, 4254065040009565),
   (10978233510416379, 26210532060842323, 10978233510416379, 15232298550425944),
   (6724168470406814, 34718662140861453, 6724168470406814, 14546156729641011),
   (3362084235203407, 34718662140861453, 3362084235203407, 17908240964844418),
   (29126625893642651, 25764541658439244, 3362084235203407, 15678288952829023),
   (29126625893642651, 12882270829219622, 16244355064423029, 12882270829219622),
   (3362084235203407, 34152596029267447, 3362084235203407, 17342174853250412),
   (35567761308252462, 32205677073049055, 3362084235203407, 15395255897032020),
   (17783880654126231, 32205677073049055, 17783880654126231, 14421796418922824),
   (3362084235203407, 35126055507376643, 3362084235203407, 14953550096156201),
   (3362084235203407, 32692406812103653, 3362084235203407, 15881985636086618),
   (21389329758856937, 18027245523653530, 3362084235203407, 14665161288450123),
   (28113498229263751, 11303077053246716, 16810421176017035, 11303077053246716),
   (33765036755887109, 5651538526623358, 16810421176017035, 5651538526623358),
   (33765036755887109, 2825769263311679, 16810421176017035, 2825769263311679),
   (36014028403786632, 2825769263311679, 16233643560604879, 2825769263311679),
   (34961629781763390, 2825769263311679, 18007014201893316, 2825769263311679),
   (34435430470751769, 2825769263311679, 17480814890881695, 2825769263311679),
   (21456369130343403, 24282138393655082, 15804830603720045, 2825769263311679),
   (12979061340408366, 27107907656966761, 12979061340408366, 14128846316558395),
   (33597438327170944, 27107907656966761, 6489530670204183, 14128846316558395),
   (16798719163585472, 27107907656966761, 16798719163585472, 10309188493381289),
   (29777780503993838, 27107907656966761, 2669872847027077, 16428416268858453),
   (14888890251996919, 27107907656966761, 14888890251996919, 12219017404969842),
   (20998398954481840, 27107907656966761, 14888890251996919, 6109508702484921),
   (31677890342590148, 6109508702484921, 13349364235135385, 6109508702484921),
   (34167471278749837, 6109508702484921, 15838945171295074, 6109508702484921),
   (26247998693102300, 32357507395587221, 14028981288132458, 6109508702484921),
   (13123999346551150, 32357507395587221, 13123999346551150, 6109508702484921),
   (35072453220331145, 6109508702484921, 16743927112876382, 6109508702484921),
   (32809998366377875, 6109508702484921, 14481472258923112, 6109508702484921),
   (32809998366377875, 19459753534431398, 13350244831946477, 6109508702484921),
   (13350244831946477, 30547543512424605, 13350244831946477, 17197298680478128),
   (13350244831946477, 35299139004132018, 13350244831946477, 8598649340239064),
   (30999814334012486, 17649569502066009, 13350244831946477, 17649569502066009),
   (31452085155600367, 17649569502066009, 13802515653534358, 17649569502066009),
   (24550827328833188, 17649569502066009, 6901257826767179, 17649569502066009),
   (29924983166482603, 17649569502066009, 12275413664416594, 17649569502066009),
   (29924983166482603, 23787276334274306, 6137706832208297, 17649569502066009),
   (30688534161041485, 17649569502066009, 13038964658975476, 17649569502066009),
   (24169051831553747, 17649569502066009, 6519482329487738, 17649569502066009),
   (20909310666809878, 17649569502066009, 3259741164743869, 17649569502066009),
   (27428792996297616, 11130087172578271, 16298705823719345, 11130087172578271),
   (13714396498148808, 24844483670727079, 13714396498148808, 11130087172578271),
   (6857198249074404, 31701681919801483, 6857198249074404, 17987285421652675),
   (34285991245372020, 4272888923503867, 17194435551356552, 4272888923503867),
   (17142995622686010, 21415884546189877, 17142995622686010, 4272888923503867),
   (8571497811343005, 29987382357532882, 8571497811343005, 12844386734846872),
   (23565188990109446, 14993691178766441, 8571497811343005, 14993691178766441),
   (27863797877948584, 14993691178766441, 12870106699182143, 14993691178766441),
   (28925590117740733, 14993691178766441, 13931898938974292, 14993691178766441),
   (21959640648253587, 14993691178766441, 6965949469487146, 14993691178766441),
   (6965949469487146, 33172759076909329, 6965949469487146, 12274910668447891),
   (3482974734743573, 33172759076909329, 3482974734743573, 15757885403191464),
   (3482974734743573, 35742740579544316, 3482974734743573, 14844892171082878),
   (3482974734743573, 35911738773235087, 3482974734743573, 15013890364773649),
   (3482974734743573, 33629255692963622, 3482974734743573, 16214382019245757),
   (3482974734743573, 34229501520199676, 3482974734743573, 16814627846481811),
   (31046649699074130, 27563674964330557, 3482974734743573, 17114750760099838),
   (3482974734743573, 33329132779345595, 3482974734743573, 15914259105627730),
   (3482974734743573, 35820927430762449, 3482974734743573, 14923079022301011),
   (3482974734743573, 33583850021727303, 3482974734743573, 16168976348009438),
   (3482974734743573, 35566210188380741, 3482974734743573, 14668361779919303),
   (3482974734743573, 33456491400536449, 3482974734743573, 16041617726818584),
   (3482974734743573, 35884606741357876, 3482974734743573, 14986758332896438),
   (3482974734743573, 33138094847559314, 3482974734743573, 15723221173841449),
   (3482974734743573, 33983921097497522, 3482974734743573, 16569047423779657),
   (3482974734743573, 34406834222466626, 3482974734743573, 16991960548748761),
   (31135316050207605, 27652341315464032, 3482974734743573, 17203417111233313),
   (17414873673717865, 27652341315464032, 17414873673717865, 10237467641746167),
   (31241044331449881, 13826170657732016, 17414873673717865, 13826170657732016),
   (31241044331449881, 6913085328866008, 17414873673717865, 6913085328866008),
   (10501788344851857, 34565426644330040, 10501788344851857, 13561849954626326),
   (27784501667016877, 17282713322165020, 10501788344851857, 17282713322165020),
   (27784501667016877, 8641356661082510, 10501788344851857, 8641356661082510),
   (1860431683769347, 35765056570335162, 1860431683769347, 17160739732641692),
   (23463823336475622, 21603391652706275, 1860431683769347, 17882528285167581),
   (33335303320944086, 21603391652706275, 11731911668237811, 9871479984468464),
   (16667651660472043, 21603391652706275, 16667651660472043, 4935739992234232),
   (16667651660472043, 24678699961171160, 16667651660472043, 8011048300699117),
   (16667651660472043, 29007001641057623, 16667651660472043, 12339349980585580),
   (16667651660472043, 22837326650764833, 16667651660472043, 6169674990292790),
   (14826278350065716, 22837326650764833, 14826278350065716, 8011048300699117),
   (30250465825797691, 22837326650764833, 7413139175032858, 15424187475731975),
   (26543896238281262, 22837326650764833, 3706569587516429, 15424187475731975),
   (18532847937582145, 22837326650764833, 14228369224399457, 4304478713182688),
   (20685087294173489, 22837326650764833, 16380608580990801, 2152239356591344),
   (21761206972469161, 22837326650764833, 17456728259286473, 1076119678295672),
   (22299266811616997, 22837326650764833, 17994788098434309, 538059839147836),
   (20147027455025653, 22837326650764833, 17456728259286473, 2690299195739180),
   (21492177052895243, 22837326650764833, 17456728259286473, 1345149597869590),
   (22164751851830038, 22837326650764833, 17456728259286473, 672574798934795),
   (19474452656090858, 22837326650764833, 16111578661416883, 3362873994673975),
   (32574552978810262, 22837326650764833, 9737226328045429, 13100100322719404),
   (16287276489405131, 22837326650764833, 16287276489405131, 6550050161359702),
   (9737226328045429, 32750250806798510, 9737226328045429, 13275798150707652),
   (35849578059490113, 26112351731444684, 9737226328045429, 16375125403399255),
   (35849578059490113, 13056175865722342, 9737226328045429, 13056175865722342),
   (35849578059490113, 6528087932861171, 16265314260906600, 6528087932861171),
   (22793402193767771, 32640439664305855, 12946364723229687, 9847037470538084),
   (27716920929036813, 32640439664305855, 17869883458498729, 4923518735269042),
   (27716920929036813, 30178680296671334, 17869883458498729, 2461759367634521),
   (17869883458498729, 30178680296671334, 17869883458498729, 12308796838172605),
   (32959223606834396, 15089340148335667, 17869883458498729, 15089340148335667),
   (31568951951752865, 15089340148335667, 16479611803417198, 15089340148335667),
   (16479611803417198, 26007865331426741, 16479611803417198, 9528253528009543),
   (8239805901708599, 34247671233135340, 8239805901708599, 17768059429718142),
   (8239805901708599, 33603447419984868, 8239805901708599, 17123835616567670),
   (25041529611701033, 16801723709992434, 8239805901708599, 16801723709992434),
   (8239805901708599, 34569783139710576, 8239805901708599, 9850365434584779),
   (8239805901708599, 33764503373272486, 8239805901708599, 17284891569855288),
   (33361863490053441, 25122057588344842, 8239805901708599, 16882251686636243),
   (32556583723615351, 8642445784927644, 15271692153760063, 8642445784927644),
   (32556583723615351, 4321222892463822, 15271692153760063, 4321222892463822),
   (34717195169847262, 2160611446231911, 17432303599991974, 2160611446231911),
   (26074749384919618, 10803057231159555, 15271692153760063, 10803057231159555),
   (23840431923619364, 34643489154778919, 13037374692459809, 10803057231159555),
   (11920215961809682, 34643489154778919, 11920215961809682, 10803057231159555),
   (14154533423109936, 22723273192969237, 14154533423109936, 8568739769859301),
   (29800539904524205, 22723273192969237, 7077266711554968, 15646006481414269),
   (29800539904524205, 26261906548746721, 3538633355777484, 15646006481414269),
   (28031223226635463, 26261906548746721, 1769316677888742, 17415323159303011),
   (28031223226635463, 19184639837191753, 8846583389443710, 10338056447748043),
   (28031223226635463, 23607931531913608, 4423291694721855, 14761348142469898),
   (28031223226635463, 11803965765956804, 16227257460678659, 11803965765956804),
   (16227257460678659, 26565313908426702, 16227257460678659, 10338056447748043)]

/-- Exponents from -178. -/
def certs7 : List (Nat × Nat × Nat × Nat) :=
  [(16227257460678659, 29509914414892010, 16227257460678659, 13282656954213351),
   (30982214668124664, 14754957207446005, 16227257460678659, 14754957207446005),
   (30982214668124664, 11810356700980697, 7361501266163270, 11810356700980697),
   (15491107334062332, 27301464035043029, 15491107334062332, 11810356700980697),
   (7745553667031166, 35047017702074195, 7745553667031166, 11810356700980697),
   (3872776833515583, 35047017702074195, 3872776833515583, 15683133534496280),
   (19363884167577915, 31174240868558612, 7553527466597218, 11810356700980697),
   (19363884167577915, 34951004601857221, 3776763733298609, 15587120434279306),
   (19363884167577915, 27157444384717568, 11570323950438262, 7793560217139653),
   (34470939100772351, 7793560217139653, 11090258449353392, 7793560217139653),
   (28925809876095655, 7793560217139653, 13338689441816349, 7793560217139653),
   (18359685046617654, 26153245263757307, 10566124829478001, 7793560217139653),
   (13338689441816349, 26153245263757307, 13338689441816349, 12814555821940958),
   (19745967352786828, 26153245263757307, 13338689441816349, 6407277910970479),
   (36026228940150721, 26153245263757307, 9872983676393414, 16280261587363893),
   (31089737101954014, 26153245263757307, 4936491838196707, 16280261587363893),
   (24682459190983535, 26153245263757307, 17328528827114675, 1470786072773772),
   (25417852227370421, 26153245263757307, 17328528827114675, 735393036386886),
   (25785548745563864, 26153245263757307, 17696225345308118, 367696518193443),
   (25417852227370421, 27256334818337636, 16225439272534346, 1838482590967215),
   (25417852227370421, 13628167409168818, 11789684818201603, 13628167409168818),
   (32231935931954830, 6814083704584409, 11789684818201603, 6814083704584409),
   (31692089272670379, 6814083704584409, 11249838158917152, 6814083704584409),
   (32881253897796212, 6814083704584409, 12439002784042985, 6814083704584409),
   (30068794358066924, 6814083704584409, 16440626948898106, 6814083704584409),
   (21848480883617871, 28662564588202280, 15034397179033462, 6814083704584409),
   (34287483667660856, 6814083704584409, 13845232553907629, 6814083704584409),
   (30771909242999246, 6814083704584409, 17143741833830428, 6814083704584409),
   (29014122030668441, 35828205735252850, 15385954621499623, 6814083704584409),
   (8571870916915214, 34070418522922045, 8571870916915214, 16926676689091617),
   (4285935458457607, 34070418522922045, 4285935458457607, 16926676689091617),
   (23464112449147433, 19178176990689826, 4285935458457607, 14892241532232219),
   (32035983366062647, 10606306073774612, 10823371218513423, 10606306073774612),
   (32035983366062647, 5303153036887306, 16126524255400729, 5303153036887306),
   (34687559884506300, 2651576518443653, 16126524255400729, 2651576518443653),
   (19995356460696803, 22646932979140456, 17343779942253150, 2651576518443653),
   (33687369342392690, 2651576518443653, 17777910231730772, 2651576518443653),
   (35404720300301916, 2651576518443653, 16843684671196345, 2651576518443653),
   (23005513187038264, 25657089705481917, 17702360150150958, 2651576518443653),
   (35480270381881730, 2651576518443653, 16919234752776159, 2651576518443653),
   (33649594301602783, 2651576518443653, 17740135190940865, 2651576518443653),
   (28756891483797830, 31408468002241483, 15499008891579565, 2651576518443653),
   (26105314965354177, 13257882592218265, 12847432373135912, 13257882592218265),
   (26105314965354177, 19681598778786221, 6423716186567956, 13257882592218265),
   (22893456872070199, 19681598778786221, 3211858093283978, 16469740685502243),
   (22893456872070199, 21287527825428210, 1605929046641989, 16469740685502243),
   (26105314965354177, 18075669732144232, 8029645233209945, 10046024498934287),
   (35143149831426293, 9037834866072116, 17067480099282061, 9037834866072116),
   (35143149831426293, 4518917433036058, 17067480099282061, 4518917433036058),
   (26105314965354177, 22594587165180290, 3510727800173887, 15573131564832516),
   (26105314965354177, 11297293582590145, 14808021382764032, 11297293582590145),
   (18701304273972161, 29998597856562306, 7404010691382016, 11297293582590145),
   (7404010691382016, 34274435838804677, 7404010691382016, 12062403764658629),
   (3702005345691008, 34274435838804677, 3702005345691008, 15764409110349637),
   (1851002672845504, 34274435838804677, 1851002672845504, 17615411783195141),
   (925501336422752, 35199937175227429, 925501336422752, 17615411783195141),
   (4627506682113760, 31497931829536421, 4627506682113760, 17615411783195141),
   (2313753341056880, 33811685170593301, 2313753341056880, 17615411783195141),
   (1156876670528440, 34968561841121741, 1156876670528440, 17615411783195141),
   (5784383352642200, 30341055159007981, 5784383352642200, 12987905101081381),
   (2892191676321100, 33233246835329081, 2892191676321100, 15880096777402481),
   (1446095838160550, 34679342673489631, 1446095838160550, 17326192615563031),
   (7230479190802750, 31787150997168531, 7230479190802750, 17326192615563031),
   (3615239595401375, 35402390592569906, 3615239595401375, 17326192615563031),
   (3615239595401375, 35777393273291828, 3615239595401375, 17701195296284953),
   (25119175827448664, 21503936232047289, 3615239595401375, 17888696636645914),
   (32349655018251414, 14273457041244539, 3802740935762336, 14273457041244539),
   (16174827509125707, 30448284550370246, 16174827509125707, 14273457041244539),
   (31398969784310830, 15224142275185123, 16174827509125707, 15224142275185123),
   (33300340252191998, 14273457041244539, 4753426169702920, 14273457041244539),
   (30923627167340538, 14273457041244539, 16650170126095999, 14273457041244539),
   (15461813583670269, 29735270624914808, 15461813583670269, 14273457041244539),
   (15461813583670269, 24981844455211888, 15461813583670269, 9520030871541619),
   (15461813583670269, 27952735811276213, 15461813583670269, 12490922227605944),
   (15461813583670269, 21707274697473241, 15461813583670269, 6245461113802972),
   (15461813583670269, 34046357724242024, 15461813583670269, 3122730556901486),
   (12339083026768783, 27952735811276213, 12339083026768783, 15613652784507430),
   (12339083026768783, 32484992445791281, 12339083026768783, 7806826392253715),
   (22412037736280032, 32484992445791281, 12339083026768783, 10072954709511249),
   (2266128317257534, 34501875326753507, 2266128317257534, 16372848788693235),
   (1133064158628767, 35634939485382274, 1133064158628767, 17505912947322002),
   (28015047170350040, 26881983011721273, 1133064158628767, 17817469742691137),
   (30281175487607574, 24615854694463739, 5665320793143835, 13285213108176069),
   (15140587743803787, 24615854694463739, 15140587743803787, 9475266950659952),
   (35018808962937550, 19878221219133763, 15140587743803787, 4737633475329976),
   (35946496280751409, 19878221219133763, 16068275061617646, 3809946157516117),
   (27912358749942586, 19878221219133763, 8034137530808823, 11844083688324940),
   (33834400594105056, 19878221219133763, 13956179374971293, 5922041844162470),
   (16917200297052528, 19878221219133763, 16917200297052528, 2961020922081235),
   (13956179374971293, 28761283985377468, 13956179374971293, 14805104610406175),
   (13956179374971293, 28336821367660027, 13956179374971293, 14380641992688734),
   (21146500371315660, 28336821367660027, 13956179374971293, 7190320996344367),
   (33829291893134630, 7190320996344367, 12258328904101529, 7190320996344367),
   (31295287939256049, 7190320996344367, 16914645946567315, 7190320996344367),
   (26433125464144575, 33623446460488942, 12052483471455841, 7190320996344367),
   (12052483471455841, 35951604981721835, 12052483471455841, 11846638038810153),
   (12052483471455841, 24002044226588838, 12052483471455841, 11949560755132997),
   (24053505584750260, 12001022113294419, 12052483471455841, 12001022113294419),
   (36028797018963968, 12001022113294419, 12026752792375130, 12001022113294419),
   (36028797018963968, 23976313547508127, 12052483471455841, 11923830076052286),
   (18014398509481984, 23976313547508127, 18014398509481984, 5961915038026143),
   (9007199254740992, 32983512802249119, 9007199254740992, 14969114292767135),
   (9007199254740992, 29809575190130715, 9007199254740992, 11795176680648731),
   (4503599627370496, 34313174817501211, 4503599627370496, 16298776308019227),
   (2251799813685248, 34313174817501211, 2251799813685248, 16298776308019227),
   (2251799813685248, 34206085452705927, 2251799813685248, 16191686943223943),
   (1125899906842624, 35331985359548551, 1125899906842624, 17317586850066567),
   (562949953421312, 35894935312969863, 562949953421312, 17880536803487879),
   (281474976710656, 35894935312969863, 281474976710656, 17880536803487879),
   (281474976710656, 35922438442414755, 281474976710656, 17908039932932771),
   (140737488355328, 35922438442414755, 140737488355328, 17908039932932771),
   (70368744177664, 35992807186592419, 70368744177664, 17978408677110435),
   (70368744177664, 35989585345461551, 70368744177664, 17975186835979567),
   (35184372088832, 36024769717550383, 35184372088832, 18010371208068399),
   (17592186044416, 36024769717550383, 17592186044416, 18010371208068399),
   (17592186044416, 36026252697940459, 17592186044416, 18011854188458475),
   (8796093022208, 36026252697940459, 8796093022208, 18011854188458475),
   (4398046511104, 36026252697940459, 4398046511104, 18011854188458475),
   (2199023255552, 36028451721196011, 2199023255552, 18014053211714027),
   (2199023255552, 36027070530124183, 2199023255552, 18012672020642199),
   (1099511627776, 36028170041751959, 1099511627776, 18013771532269975),
   (549755813888, 36028719797565847, 549755813888, 18014321288083863),
   (549755813888, 36028410911973363, 549755813888, 18014012402491379),
   (274877906944, 36028685789880307, 274877906944, 18014287280398323),
   (137438953472, 36028685789880307, 137438953472, 18014287280398323),
   (137438953472, 36028790629359551, 137438953472, 18014392119877567),
   (68719476736, 36028790629359551, 68719476736, 18014392119877567),
   (34359738368, 36028790629359551, 34359738368, 18014392119877567)]

/-- Exponents from -50. -/
def certs8 : List (Nat × Nat × Nat × Nat) :=
  [(17179869184, 36028790629359551, 17179869184, 18014392119877567),
   (17179869184, 36028782250811067, 17179869184, 18014383741329083),
   (8589934592, 36028790840745659, 8589934592, 18014392331263675),
   (4294967296, 36028795135712955, 4294967296, 18014396626230971),
   (4294967296, 36028796192643495, 4294967296, 18014397683161511),
   (2147483648, 36028796192643495, 2147483648, 18014397683161511),
   (1073741824, 36028796192643495, 1073741824, 18014397683161511),
   (1073741824, 36028796108587075, 1073741824, 18014397599105091),
   (536870912, 36028796645457987, 536870912, 18014398135976003),
   (268435456, 36028796913893443, 268435456, 18014398404411459),
   (134217728, 36028796913893443, 134217728, 18014398404411459),
   (134217728, 36028796896264527, 134217728, 18014398386782543),
   (67108864, 36028796963373391, 67108864, 18014398453891407),
   (33554432, 36028796996927823, 33554432, 18014398487445839),
   (33554432, 36028797009446539, 33554432, 18014398499964555),
   (16777216, 36028797009446539, 16777216, 18014398499964555),
   (8388608, 36028797017835147, 8388608, 18014398508353163),
   (8388608, 36028797013319863, 8388608, 18014398503837879),
   (4194304, 36028797017514167, 4194304, 18014398508032183),
   (2097152, 36028797017514167, 2097152, 18014398508032183),
   (1048576, 36028797018562743, 1048576, 18014398509080759),
   (1048576, 36028797018006419, 1048576, 18014398508524435),
   (524288, 36028797018530707, 524288, 18014398509048723),
   (262144, 36028797018792851, 262144, 18014398509310867),
   (262144, 36028797018894815, 262144, 18014398509412831),
   (131072, 36028797018894815, 131072, 18014398509412831),
   (65536, 36028797018960351, 65536, 18014398509478367),
   (65536, 36028797018945883, 65536, 18014398509463899),
   (32768, 36028797018945883, 32768, 18014398509463899),
   (16384, 36028797018962267, 16384, 18014398509480283),
   (8192, 36028797018962267, 8192, 18014398509480283),
   (8192, 36028797018963655, 8192, 18014398509481671),
   (4096, 36028797018963655, 4096, 18014398509481671),
   (2048, 36028797018963655, 2048, 18014398509481671),
   (2048, 36028797018962403, 2048, 18014398509480419),
   (1024, 36028797018963427, 1024, 18014398509481443),
   (512, 36028797018963939, 512, 18014398509481955),
   (512, 36028797018963823, 512, 18014398509481839),
   (256, 36028797018963823, 256, 18014398509481839),
   (128, 36028797018963951, 128, 18014398509481967),
   (64, 36028797018963951, 64, 18014398509481967),
   (64, 36028797018963947, 64, 18014398509481963),
   (32, 36028797018963947, 32, 18014398509481963),
   (16, 36028797018963963, 16, 18014398509481979),
   (16, 36028797018963959, 16, 18014398509481975),
   (8, 36028797018963967, 8, 18014398509481983),
   (4, 36028797018963967, 4, 18014398509481983),
   (4, 36028797018963967, 4, 18014398509481983),
   (2, 36028797018963969, 2, 18014398509481985),
   (1, 36028797018963970, 1, 18014398509481985),
   (1, 36028797018963970, 1, 18014398509481985),
   (1, 36028797018963970, 1, 18014398509481985),
   (1, 36028797018963970, 1, 18014398509481985),
   (1, 36028797018963970, 1, 18014398509481985),
   (5, 36028797018963968, 5, 18014398509481983),
   (5, 36028797018963969, 5, 18014398509481984),
   (5, 36028797018963967, 5, 18014398509481982),
   (25, 36028797018963957, 25, 18014398509481982),
   (25, 36028797018963966, 25, 18014398509481966),
   (25, 36028797018963958, 25, 18014398509481983),
   (125, 36028797018963958, 125, 18014398509481958),
   (125, 36028797018963854, 125, 18014398509481979),
   (125, 36028797018963927, 125, 18014398509481927),
   (125, 36028797018963901, 125, 18014398509481901),
   (625, 36028797018963526, 625, 18014398509481651),
   (625, 36028797018963638, 625, 18014398509481763),
   (625, 36028797018963694, 625, 18014398509481819),
   (3125, 36028797018963694, 3125, 18014398509479319),
   (3125, 36028797018963097, 3125, 18014398509481847),
   (3125, 36028797018961236, 3125, 18014398509479986),
   (15625, 36028797018961236, 15625, 18014398509476861),
   (15625, 36028797018949368, 15625, 18014398509480618),
   (15625, 36028797018959059, 15625, 18014398509474684),
   (15625, 36028797018956092, 15625, 18014398509471717),
   (78125, 36028797018956092, 78125, 18014398509424842),
   (78125, 36028797018931171, 78125, 18014398509478046),
   (78125, 36028797018957773, 78125, 18014398509426523),
   (390625, 36028797018801523, 390625, 18014398509426523),
   (390625, 36028797018580449, 390625, 18014398509205449),
   (390625, 36028797018860537, 390625, 18014398509094912),
   (1953125, 36028797018469912, 1953125, 18014398508704287),
   (1953125, 36028797017047456, 1953125, 18014398509234956),
   (1953125, 36028797018289353, 1953125, 18014398508523728),
   (1953125, 36028797017933739, 1953125, 18014398508168114),
   (9765625, 36028797010121239, 9765625, 18014398504261864),
   (9765625, 36028797015802807, 9765625, 18014398500177807),
   (9765625, 36028797018643591, 9765625, 18014398503018591),
   (48828125, 36028796979581091, 48828125, 18014398493252966),
   (48828125, 36028797000532733, 48828125, 18014398465376483),
   (48828125, 36028797011008554, 48828125, 18014398475852304),
   (244140625, 36028796864524179, 244140625, 18014398427024179),
   (244140625, 36028796991832402, 244140625, 18014398310191777),
   (244140625, 36028796933416201, 244140625, 18014398495916201),
   (244140625, 36028796782137788, 244140625, 18014398344637788),
   (1220703125, 36028796293856538, 1220703125, 18014398100497163),
   (1220703125, 36028796340287644, 1220703125, 18014398146928269),
   (1220703125, 36028796363503197, 1220703125, 18014398170143822),
   (6103515625, 36028793922096947, 6103515625, 18014395728737572),
   (6103515625, 36028792102650036, 6103515625, 18014393909290661),
   (6103515625, 36028794244684393, 6103515625, 18014396051325018),
   (30517578125, 36028775934137518, 30517578125, 18014371637262518),
   (30517578125, 36028792263943759, 30517578125, 18014387967068759),
   (30517578125, 36028785170057817, 30517578125, 18014380873182817),
   (30517578125, 36028781623114846, 30517578125, 18014377326239846),
   (152587890625, 36028751105536721, 152587890625, 18014377326239846),
   (152587890625, 36028673038119923, 152587890625, 18014299258823048),
   (152587890625, 36028786592302149, 152587890625, 18014260225114649),
   (762939453125, 36028176240739649, 762939453125, 18013649873552149),
   (762939453125, 36028233017830762, 762939453125, 18013706650643262),
   (762939453125, 36028642876102881, 762939453125, 18014116508915381),
   (3814697265625, 36025591118290381, 3814697265625, 18012590630009131),
   (3814697265625, 36027703396059253, 3814697265625, 18010888210512378),
   (3814697265625, 36028759534943689, 3814697265625, 18011944349396814),
   (3814697265625, 36025472907120282, 3814697265625, 18012472418839032),
   (19073486328125, 36021658209854657, 19073486328125, 17997213629776532),
   (19073486328125, 36025736941841391, 19073486328125, 18001292361763266),
   (19073486328125, 36027776307834758, 19073486328125, 18003331727756633),
   (95367431640625, 36027776307834758, 95367431640625, 18003331727756633),
   (95367431640625, 35942965302354879, 95367431640625, 18013888153917379),
   (95367431640625, 35948243515435252, 95367431640625, 17923798935357127),
   (476837158203125, 35852876083794627, 476837158203125, 17733064072075877),
   (476837158203125, 35807831474514501, 476837158203125, 17688019462795751),
   (476837158203125, 35785309169874438, 476837158203125, 17665497158155688),
   (476837158203125, 36012466596655969, 476837158203125, 17892654584937219),
   (2384185791015625, 35535629438452844, 2384185791015625, 16462143110327844),
   (2384185791015625, 34457115256335797, 2384185791015625, 17767814719226422),
   (2384185791015625, 35109951060785086, 2384185791015625, 16036464732660086),
   (11920928955078125, 27957393687738211, 11920928955078125, 16036464732660086)]

/-- Exponents from 78. -/
def certs9 : List (Nat × Nat × Nat × Nat) :=
  [(11920928955078125, 31860090276486293, 11920928955078125, 8018232366330043),
   (11920928955078125, 33811438570860334, 11920928955078125, 9969580660704084),
   (29695902793278373, 9969580660704084, 9756741471870205, 9969580660704084),
   (34680693123630415, 4984790330352042, 14741531802222247, 4984790330352042),
   (34680693123630415, 2492395165176021, 17233926967398268, 2492395165176021),
   (28556124805107302, 31048519970283323, 16094148979227197, 2492395165176021),
   (18586544144403218, 31048519970283323, 6124568318523113, 12461975825880105),
   (9293272072201609, 31048519970283323, 9293272072201609, 12461975825880105),
   (20170896021242466, 31048519970283323, 9293272072201609, 10877623949040857),
   (9293272072201609, 35801575600801067, 9293272072201609, 17215031456397849),
   (9293272072201609, 31840695908702947, 9293272072201609, 13254151764299729),
   (29860256062653887, 20566983990452278, 9293272072201609, 11273711918250669),
   (35192648442757376, 11273711918250669, 12645224606256038, 11273711918250669),
   (28870036139629357, 11273711918250669, 17596324221378688, 11273711918250669),
   (20071874028940013, 31345585947190682, 8798162110689344, 11273711918250669),
   (35744667002535354, 15672792973595341, 4399081055344672, 15672792973595341),
   (20071874028940013, 18148342781156666, 1923531247783347, 16224811533373319),
   (20071874028940013, 29146045419518346, 10997702638361680, 9074171390578333),
   (34644896738699186, 14573022709759173, 5498851319180840, 14573022709759173),
   (34644896738699186, 3575320071397493, 16768296381711721, 3575320071397493),
   (17322448369349593, 20897768440747086, 17322448369349593, 3575320071397493),
   (17322448369349593, 27771332589723136, 17322448369349593, 10448884220373543),
   (34367820744880250, 3575320071397493, 16491220387892785, 3575320071397493),
   (20759230443837618, 24334550515235111, 17183910372440125, 3575320071397493),
   (10379615221918809, 34714165737153920, 10379615221918809, 13954935293316302),
   (27563525594358934, 24334550515235111, 3228975079123823, 17876600356987465),
   (13781762797179467, 24334550515235111, 13781762797179467, 10552787718055644),
   (32839919453386756, 19058156656207289, 13781762797179467, 5276393859027822),
   (35478116382900667, 19058156656207289, 16419959726693378, 2638196929513911),
   (24925328664845023, 19058156656207289, 5867172008637734, 13190984647569555),
   (21991742660526156, 19058156656207289, 2933586004318867, 16124570651888422),
   (30054027986470367, 19058156656207289, 10995871330263078, 8062285325944211),
   (10995871330263078, 29315555299457977, 10995871330263078, 7323812638931821),
   (5497935665131539, 34813490964589516, 5497935665131539, 12821748304063360),
   (5497935665131539, 33900552477689375, 5497935665131539, 17406745482294758),
   (27489678325657695, 17406745482294758, 10082932843362937, 17406745482294758),
   (27489678325657695, 8703372741147379, 10082932843362937, 8703372741147379),
   (18096525533402537, 26799898274549916, 9393152792255158, 8703372741147379),
   (31496474670677495, 13399949137274958, 4696576396127579, 13399949137274958),
   (32186254721785274, 8703372741147379, 14779509239490516, 8703372741147379),
   (24796500102040016, 33499872843187395, 16093127360892637, 8703372741147379),
   (12398250051020008, 33499872843187395, 12398250051020008, 8703372741147379),
   (35881132031657903, 8703372741147379, 9771013808215766, 8703372741147379),
   (30995625127550020, 8703372741147379, 13588879645255262, 8703372741147379),
   (15497812563775010, 24201185304922389, 15497812563775010, 8703372741147379),
   (33972199113138155, 8703372741147379, 16565453630843397, 8703372741147379),
   (30041158668290146, 8703372741147379, 12634413185995388, 8703372741147379),
   (15020579334145073, 23723952075292452, 15020579334145073, 8703372741147379),
   (26882555371791299, 11861976037646226, 15020579334145073, 11861976037646226),
   (33199761964788993, 8703372741147379, 15793016482494235, 8703372741147379),
   (20951567352968186, 29654940094115565, 12248194611820807, 8703372741147379),
   (10475783676484093, 29654940094115565, 10475783676484093, 8703372741147379),
   (33199761964788993, 19179156417631472, 14020605547157521, 5158550870473951),
   (33199761964788993, 9589578208815736, 14020605547157521, 9589578208815736),
   (33199761964788993, 4794789104407868, 14020605547157521, 4794789104407868),
   (33199761964788993, 23973945522039340, 9225816442749653, 14748129079289687),
   (33199761964788993, 11986972761019670, 9225816442749653, 11986972761019670),
   (33199761964788993, 5993486380509835, 15219302823259488, 5993486380509835),
   (31583596933669084, 5993486380509835, 13603137792139579, 5993486380509835),
   (7609651411629744, 29967431902549175, 7609651411629744, 14748129079289687),
   (3804825705814872, 33772257608364047, 3804825705814872, 14748129079289687),
   (1902412852907436, 35674670461271483, 1902412852907436, 16650541932197123),
   (1902412852907436, 35692388338299715, 1902412852907436, 16668259809225355),
   (951206426453718, 35692388338299715, 951206426453718, 17619466235679073),
   (475603213226859, 35692388338299715, 475603213226859, 17619466235679073),
   (2378016066134295, 34265578698619138, 2378016066134295, 17619466235679073),
   (2378016066134295, 33778901812249634, 2378016066134295, 17132789349309569),
   (2378016066134295, 35913579435199177, 2378016066134295, 16889450906124817),
   (23901829882935326, 21523813816801031, 2378016066134295, 16767781684532441),
   (23901829882935326, 35913579435199177, 11890080330671475, 12011749552263851),
   (11950914941467663, 35913579435199177, 11950914941467663, 12011749552263851),
   (11950914941467663, 35883162129801083, 11950914941467663, 11981332246865757),
   (23871412577537232, 35883162129801083, 11859663025273381, 12011749552263851),
   (11935706288768616, 35883162129801083, 11935706288768616, 12011749552263851),
   (5967853144384308, 35883162129801083, 5967853144384308, 17979602696648159),
   (5967853144384308, 30219482039397715, 5967853144384308, 12315922606244791),
   (2983926572192154, 33203408611589869, 2983926572192154, 15299849178436945),
   (1491963286096077, 34695371897685946, 1491963286096077, 16791812464533022),
   (1491963286096077, 35251245381995897, 1491963286096077, 17347685948842973),
   (7459816430480385, 32267318809803743, 7459816430480385, 17347685948842973),
   (7459816430480385, 34783200481102834, 7459816430480385, 12403751189661679),
   (32311233101512187, 24851416671031802, 7459816430480385, 17391600240551417),
   (19907481911850508, 17391600240551417, 2515881671299091, 17391600240551417),
   (27345341196476671, 17391600240551417, 9953740955925254, 17391600240551417),
   (22368470718514044, 17391600240551417, 4976870477962627, 17391600240551417),
   (22368470718514044, 19852589047214953, 2515881671299091, 17336707375915862),
   (11184235359257022, 31036824406471975, 11184235359257022, 8668353687957931),
   (5592117679628511, 31036824406471975, 5592117679628511, 14260471367586442),
   (5592117679628511, 35090824081935776, 5592117679628511, 12722353363421732),
   (27960588398142555, 35090824081935776, 13700117030556113, 7130235683793221),
   (27960588398142555, 17545412040967888, 10415176357174667, 17545412040967888),
   (27960588398142555, 8772706020483944, 10415176357174667, 8772706020483944),
   (10415176357174667, 33448353745245053, 10415176357174667, 12618001030895719),
   (10415176357174667, 32346941408384527, 10415176357174667, 11516588694035193),
   (21381058882779597, 32346941408384527, 10415176357174667, 10965882525604930),
   (9864470188744404, 32346941408384527, 9864470188744404, 12618001030895719),
   (4932235094372202, 32346941408384527, 4932235094372202, 17550236125267921),
   (34813058955570628, 32346941408384527, 2466117547186101, 17550236125267921),
   (17406529477785314, 32346941408384527, 17406529477785314, 14940411930599213),
   (22338764572157516, 32346941408384527, 12330587735930505, 10008176836227011),
   (11169382286078758, 32346941408384527, 11169382286078758, 10008176836227011),
   (5584691143039379, 32346941408384527, 5584691143039379, 15592867979266390),
   (27923455715196895, 21177559122305769, 6745896592891126, 14431662529414643),
   (24550507418751332, 21177559122305769, 3372948296445563, 17804610825860206),
   (12275253709375666, 33452812831681435, 12275253709375666, 8902305412930103),
   (15648202005821229, 30079864535235872, 15648202005821229, 14431662529414643),
   (30688134273439165, 15039932267617936, 15648202005821229, 15039932267617936),
   (30688134273439165, 7519966133808968, 15648202005821229, 7519966133808968),
   (34448117340343649, 3759983066904484, 15648202005821229, 3759983066904484),
   (23168168139630197, 18799915334522420, 4368252805107777, 14431662529414643),
   (32568125806891407, 9399957667261210, 13768210472368987, 9399957667261210),
   (32568125806891407, 4699978833630605, 13768210472368987, 4699978833630605),
   (13768210472368987, 23499894168153025, 13768210472368987, 9731683695784038),
   (18634052320261006, 23499894168153025, 13768210472368987, 4865841847892019),
   (9317026160130503, 32816920328283528, 9317026160130503, 14182868008022522),
   (13768210472368987, 32816920328283528, 13768210472368987, 5280499383545554),
   (30176670636510751, 16408460164141764, 13768210472368987, 16408460164141764),
   (30176670636510751, 8204230082070882, 13768210472368987, 8204230082070882),
   (36024132033561407, 8204230082070882, 11411441787348761, 8204230082070882),
   (36024132033561407, 4102115041035441, 15513556828384202, 4102115041035441),
   (32369468660404747, 4102115041035441, 15961008496262983, 4102115041035441),
   (34644252014861858, 4102115041035441, 14133676809684653, 4102115041035441),
   (26440021932790976, 20510575205177205, 5929446727613771, 14581128477563434),
   (13220010966395488, 33730586171572693, 13220010966395488, 7290564238781717),
   (6610005483197744, 33730586171572693, 6610005483197744, 13900569721979461),
   (33050027415988720, 13900569721979461, 5248887972029798, 13900569721979461),
   (16525013707994360, 30425583429973821, 16525013707994360, 13900569721979461),
   (8262506853997180, 30425583429973821, 8262506853997180, 13900569721979461)]

/-- Exponents from 206. -/
def certs10 : List (Nat × Nat × Nat × Nat) :=
  [(19149457694009259, 22163076575976641, 16135838812041877, 3013618881967382),
   (20656267134992950, 22163076575976641, 17642648253025568, 1506809440983691),
   (10328133567496475, 32491210143473116, 10328133567496475, 11834943008480166),
   (26573738639233033, 16245605071736558, 10328133567496475, 16245605071736558),
   (33888253324762126, 5917471504240083, 16135838812041877, 5917471504240083),
   (34696541175101312, 5917471504240083, 16944126662381063, 5917471504240083),
   (17348270587550656, 23265742091790739, 17348270587550656, 5917471504240083),
   (17348270587550656, 29587357521200415, 17348270587550656, 12239086933649759),
   (8674135293775328, 29587357521200415, 8674135293775328, 12239086933649759),
   (4337067646887664, 33924425168088079, 4337067646887664, 16576154580537423),
   (21685338234438320, 16576154580537423, 5109183653900897, 16576154580537423),
   (10842669117219160, 27418823697756583, 10842669117219160, 16576154580537423),
   (5421334558609580, 32840158256366163, 5421334558609580, 16576154580537423),
   (2710667279304790, 35550825535670953, 2710667279304790, 16576154580537423),
   (13553336396523950, 35550825535670953, 13553336396523950, 8444152742623053),
   (6776668198261975, 35550825535670953, 6776668198261975, 15220820940885028),
   (6776668198261975, 34717083263490414, 6776668198261975, 14387078668704489),
   (33883340991309875, 27940415065228439, 5942925926081436, 16054563213065567),
   (33883340991309875, 30911878028269157, 2971462963040718, 16054563213065567),
   (33883340991309875, 32397609509789516, 1485731481520359, 17540294694585926),
   (7428657407601795, 30911878028269157, 7428657407601795, 16054563213065567),
   (19170267717935476, 30911878028269157, 7428657407601795, 11741610310333681),
   (9585133858967738, 30911878028269157, 9585133858967738, 11741610310333681),
   (4792566929483869, 35704444957753026, 4792566929483869, 16534177239817550),
   (23962834647419345, 26119311098785288, 17493405293321516, 2156476451365943),
   (23962834647419345, 13059655549392644, 10903179098026701, 13059655549392644),
   (30492662422115667, 6529827774696322, 17433006872723023, 6529827774696322),
   (17433006872723023, 32649138873481610, 17433006872723023, 15216132000758587),
   (33757576309463828, 16324569436740805, 17433006872723023, 16324569436740805),
   (16878788154731914, 33203357591472719, 16878788154731914, 16324569436740805),
   (34311795027454937, 15770350718749696, 2771093589955545, 15770350718749696),
   (34311795027454937, 7885175359374848, 10656268949330393, 7885175359374848),
   (34311795027454937, 3942587679687424, 14598856629017817, 3942587679687424),
   (34311795027454937, 1971293839843712, 16570150468861529, 1971293839843712),
   (35539700188058557, 1971293839843712, 17798055629465149, 1971293839843712),
   (35539700188058557, 985646919921856, 17798055629465149, 985646919921856),
   (35539700188058557, 492823459960928, 17798055629465149, 492823459960928),
   (35539700188058557, 2464117299804640, 15826761789621437, 2464117299804640),
   (35539700188058557, 1232058649902320, 17058820439523757, 1232058649902320),
   (35539700188058557, 616029324951160, 17674849764474917, 616029324951160),
   (34307641538156237, 3080146624755800, 15826761789621437, 3080146624755800),
   (35847714850534137, 1540073312377900, 17366835101999337, 1540073312377900),
   (35847714850534137, 770036656188950, 17366835101999337, 770036656188950),
   (35847714850534137, 385018328094475, 17751853430093812, 385018328094475),
   (35847714850534137, 1925091640472375, 16596798445810387, 1925091640472375),
   (34287136369282256, 1925091640472375, 16961311605030881, 1925091640472375),
   (34469392948892503, 1925091640472375, 17143568184641128, 1925091640472375),
   (32544301308420128, 9625458202361875, 13293384903696378, 9625458202361875),
   (25897608856571939, 35523067058933814, 16272150654210064, 9625458202361875),
   (25897608856571939, 17761533529466907, 8136075327105032, 17761533529466907),
   (25897608856571939, 11114841077618718, 14782767778953221, 11114841077618718),
   (25897608856571939, 31455029395381298, 14782767778953221, 5557420538809359),
   (25897608856571939, 15727514697690649, 10170094158881290, 15727514697690649),
   (20812561777131294, 15727514697690649, 5085047079440645, 15727514697690649),
   (20812561777131294, 16199888157059363, 4612673620071931, 16199888157059363),
   (10406280888565647, 26606169045625010, 10406280888565647, 16199888157059363),
   (10406280888565647, 34115646299943799, 10406280888565647, 13303084522812505),
   (7509477254318789, 29502972679871868, 7509477254318789, 14484018171234290),
   (29770440848573512, 22260963594254723, 7509477254318789, 14751486339935934),
   (14885220424286756, 22260963594254723, 14885220424286756, 7375743169967967),
   (14885220424286756, 21993495425553079, 14885220424286756, 7108275001266323),
   (7442610212143378, 29436105637696457, 7442610212143378, 14550885213409701),
   (3721305106071689, 33157410743768146, 3721305106071689, 14550885213409701),
   (3721305106071689, 35185230902242518, 3721305106071689, 16578705371884073),
   (18606525530358445, 35185230902242518, 2027820158474372, 16578705371884073),
   (18606525530358445, 17592615451121259, 1013910079237186, 17592615451121259),
   (18606525530358445, 18099570490739852, 506955039618593, 17592615451121259),
   (20127390649214224, 17592615451121259, 2534775198092965, 17592615451121259),
   (27656310775728371, 17592615451121259, 10063695324607112, 17592615451121259),
   (27656310775728371, 22624463113424815, 5031847662303556, 17592615451121259),
   (5031847662303556, 32612752970267179, 5031847662303556, 17517209983356511),
   (2515923831151778, 35128676801418957, 2515923831151778, 17517209983356511),
   (1257961915575889, 35128676801418957, 1257961915575889, 17517209983356511),
   (1257961915575889, 35804786176559869, 1257961915575889, 16935357442921534),
   (6289809577879445, 32030900429832202, 6289809577879445, 13161471696193867),
   (34884878948554436, 28595069370674991, 6289809577879445, 16015450214916101),
   (17442439474277218, 28595069370674991, 17442439474277218, 11152629896397773),
   (17442439474277218, 20878270533434429, 17442439474277218, 3435831059157211),
   (8721219737138609, 29599490270573038, 8721219737138609, 12157050796295820),
   (8721219737138609, 32242184609563737, 8721219737138609, 14799745135286519),
   (11363914076129308, 32242184609563737, 11363914076129308, 9514356457305121),
   (5681957038064654, 32242184609563737, 5681957038064654, 15196313495369775),
   (2840978519032327, 35083163128596064, 2840978519032327, 15196313495369775),
   (20382560083330359, 17541581564298032, 2840978519032327, 17541581564298032),
   (2840978519032327, 33729315959875947, 2840978519032327, 16683444845681985),
   (2840978519032327, 35331018353648099, 2840978519032327, 15444168720421810),
   (24767955474404867, 21926976955372540, 2840978519032327, 16245019917307886),
   (24767955474404867, 35331018353648099, 14204892595161635, 10563062879243232),
   (24767955474404867, 30049486914026483, 14204892595161635, 5281531439621616),
   (24767955474404867, 27408721194215675, 16845658314972443, 2640765719810808),
   (34053742898456863, 2640765719810808, 15568382859781207, 2640765719810808),
   (35374125758362267, 1320382859905404, 16888765719686611, 1320382859905404),
   (35374125758362267, 660191429952702, 17548957149639313, 660191429952702),
   (34053742898456863, 3300957149763510, 17548957149639313, 3300957149763510),
   (35704221473338618, 1650478574881755, 17548957149639313, 1650478574881755),
   (36007375060368614, 1650478574881755, 17852110736669309, 1650478574881755),
   (31207516129238347, 32857994704120102, 18003687530184307, 1650478574881755),
   (29557037554356592, 8252392874408775, 13052251805539042, 8252392874408775),
   (14778518777178296, 23030911651587071, 14778518777178296, 8252392874408775),
   (7389259388589148, 30420171040176219, 7389259388589148, 15641652262997923),
   (6526125902769521, 30420171040176219, 6526125902769521, 17367919234637177),
   (18473148471472870, 30420171040176219, 6526125902769521, 11947022568703349),
   (9236574235736435, 30420171040176219, 9236574235736435, 11947022568703349),
   (6526125902769521, 33130619373143133, 6526125902769521, 13552241664834570),
   (26354498540725848, 19828372637956327, 6526125902769521, 13302246735186806),
   (33005621908319251, 19828372637956327, 13177249270362924, 6651123367593403),
   (33005621908319251, 26416997273137789, 6588624635181462, 13239748002774865),
   (6588624635181462, 33255616837967015, 6588624635181462, 13489742932422629),
   (3294312317590731, 33255616837967015, 3294312317590731, 16784055250013360),
   (3294312317590731, 34746526165732528, 3294312317590731, 14980652260188142),
   (16471561587953655, 28157901530551066, 16471561587953655, 11686339942597411),
   (16471561587953655, 30550512353229188, 16471561587953655, 14078950765275533),
   (31746817764568249, 15275256176614594, 16471561587953655, 15275256176614594),
   (1196305411339061, 35701896897544896, 1196305411339061, 17757315727458981),
   (1196305411339061, 35795529618858363, 1196305411339061, 17850948448772448),
   (19692222926437773, 18495917515098712, 1196305411339061, 17299612103759651),
   (19692222926437773, 28940181683987129, 10444264168888417, 9247958757549356),
   (33725403329343373, 9247958757549356, 15229485814244661, 9247958757549356),
   (33725403329343373, 4623979378774678, 15229485814244661, 4623979378774678),
   (33725403329343373, 2311989689387339, 17541475503632000, 2311989689387339),
   (33725403329343373, 11559948446936695, 10605506435469983, 11559948446936695),
   (34202624335076729, 11559948446936695, 11082727441203339, 11559948446936695),
   (22881286391006712, 34441234837943407, 11321337944070017, 11559948446936695),
   (22881286391006712, 34918455843676763, 10844116938336661, 12037169452670051),
   (11440643195503356, 34918455843676763, 11440643195503356, 12037169452670051),
   (5720321597751678, 34918455843676763, 5720321597751678, 17757491050421729),
   (2860160798875839, 34918455843676763, 2860160798875839, 17757491050421729),
   (14300803994379195, 26337973447049246, 14300803994379195, 12037169452670051)]

/-- Exponents from 334. -/
def certs11 : List (Nat × Nat × Nat × Nat) :=
  [(14300803994379195, 27469790717903818, 14300803994379195, 13168986723524623),
   (14300803994379195, 28035699353331104, 14300803994379195, 13734895358951909),
   (14866712629806481, 26903882082476532, 14866712629806481, 12037169452670051),
   (28318653671044747, 13451941041238266, 14866712629806481, 13451941041238266),
   (28318653671044747, 35044624191663880, 14866712629806481, 6725970520619133),
   (21592683150425614, 33629852603095665, 9555513697755563, 12037169452670051),
   (10796341575212807, 33629852603095665, 10796341575212807, 12037169452670051),
   (10796341575212807, 33009438664367043, 10796341575212807, 11416755513941429),
   (10796341575212807, 32699231695002732, 10796341575212807, 11106548544577118),
   (31768610786909799, 11106548544577118, 9555513697755563, 11106548544577118),
   (31768610786909799, 5553274272288559, 15108787970044122, 5553274272288559),
   (35320765346464856, 5553274272288559, 13107668257310620, 5553274272288559),
   (32218695652821746, 5553274272288559, 15558872835956069, 5553274272288559),
   (32769170643276550, 5553274272288559, 16109347826410873, 5553274272288559),
   (33044408138503952, 5553274272288559, 16384585321638275, 5553274272288559),
   (21937859593926834, 27766371361442795, 16109347826410873, 5828511767515961),
   (10968929796963417, 27766371361442795, 10968929796963417, 16797441564479378),
   (30336580376166523, 19367650579203106, 10968929796963417, 8398720782239689),
   (30336580376166523, 9683825289601553, 10968929796963417, 9683825289601553),
   (31621684883528387, 8398720782239689, 14824243319049009, 8398720782239689),
   (20010202832884038, 28408923615123727, 11611482050644349, 8398720782239689),
   (10005101416442019, 28408923615123727, 10005101416442019, 8398720782239689),
   (11611482050644349, 26802542980921397, 11611482050644349, 15191060930277048),
   (30818494566427222, 19207012515782873, 11611482050644349, 7595530465138524),
   (15409247283213611, 34616259798996484, 15409247283213611, 3797765232569262),
   (35270818857806173, 3797765232569262, 16281992694959863, 3797765232569262),
   (35270818857806173, 1898882616284631, 16281992694959863, 1898882616284631),
   (35674794283607081, 1898882616284631, 16685968120760771, 1898882616284631),
   (20685721066230487, 22584603682515118, 16887955833661225, 1898882616284631),
   (14989073217376594, 24483486298799749, 14989073217376594, 9494413081423155),
   (7494536608688297, 31978022907488046, 7494536608688297, 16988949690111452),
   (23483548062432320, 15989011453744023, 7494536608688297, 15989011453744023),
   (35472806570706627, 999938236367429, 17473918316092905, 999938236367429),
   (19236310639904457, 20236248876271886, 17236434167169599, 999938236367429),
   (29354435078040400, 10118124438135943, 9118186201768514, 10118124438135943),
   (9118186201768514, 32354249787142687, 9118186201768514, 14117877383605659),
   (4559093100884257, 32354249787142687, 4559093100884257, 14117877383605659),
   (32133950746666243, 27574857645781986, 4559093100884257, 13897578343129215),
   (32133950746666243, 13787428822890993, 4559093100884257, 13787428822890993),
   (22795465504421285, 13787428822890993, 9008036681530292, 13787428822890993),
   (32078875986547132, 13787428822890993, 4504018340765146, 13787428822890993),
   (29826866816164559, 13787428822890993, 16039437993273566, 13787428822890993),
   (29826866816164559, 9283410482125847, 11260045851912865, 9283410482125847),
   (29826866816164559, 19555138649145203, 10271728167019356, 9283410482125847),
   (24691002732654881, 19555138649145203, 5135864083509678, 14419274565635525),
   (24691002732654881, 23702685047761372, 988317684893509, 17772778938400318),
   (24691002732654881, 11851342523880686, 12839660208774195, 11851342523880686),
   (24691002732654881, 30616673994595224, 12839660208774195, 5925671261940343),
   (24691002732654881, 15308336997297612, 9382665735357269, 15308336997297612),
   (24691002732654881, 27159679521178298, 17284972367084630, 2468676788523417),
   (24691002732654881, 13579839760589149, 11111162972065732, 13579839760589149),
   (24691002732654881, 19135421246622015, 5555581486032866, 13579839760589149),
   (30246584218687747, 32715261007211164, 17903200276070662, 2468676788523417),
   (30246584218687747, 16357630503605582, 13888953715082165, 16357630503605582),
   (30246584218687747, 8178815251802791, 13888953715082165, 8178815251802791),
   (5710138463279374, 35183937795734581, 5710138463279374, 12343383942617085),
   (2855069231639687, 35183937795734581, 2855069231639687, 15198453174256772),
   (24729641976966508, 21874572745326821, 2855069231639687, 16164434282047447),
   (24729641976966508, 35183937795734581, 14275346158198435, 10454295818768073),
   (12364820988483254, 35183937795734581, 12364820988483254, 10454295818768073),
   (6182410494241627, 35183937795734581, 6182410494241627, 16636706313009700),
   (6182410494241627, 33047995133471358, 6182410494241627, 14500763650746477),
   (6182410494241627, 35409355288282623, 6182410494241627, 16862123805557742),
   (6182410494241627, 33160703879745379, 6182410494241627, 14613472397020498),
   (6182410494241627, 32036378175476757, 6182410494241627, 13489146692751876),
   (30912052471208135, 13489146692751876, 17422905778456259, 13489146692751876),
   (30912052471208135, 6744573346375938, 17422905778456259, 6744573346375938),
   (30912052471208135, 34284339144396104, 17422905778456259, 3372286673187969),
   (17422905778456259, 34284339144396104, 17422905778456259, 16861433365939845),
   (34565075350654311, 17142169572198052, 17422905778456259, 17142169572198052),
   (34565075350654311, 8571084786099026, 17422905778456259, 8571084786099026),
   (34565075350654311, 4285542393049513, 17422905778456259, 4285542393049513),
   (30279532957604798, 21427711965247565, 8851820992357233, 12575890972890332),
   (15139766478802399, 21427711965247565, 15139766478802399, 6287945486445166),
   (18283739222024982, 21427711965247565, 15139766478802399, 3143972743222583),
   (11995793735579816, 27715657451692731, 11995793735579816, 15719863716112915),
   (5997896867789908, 33713554319482639, 5997896867789908, 15719863716112915),
   (2998948433894954, 33713554319482639, 2998948433894954, 15719863716112915),
   (14994742169474770, 33713554319482639, 14994742169474770, 3724069980533099),
   (7497371084737385, 33713554319482639, 7497371084737385, 11221441065270484),
   (20605462702110012, 33713554319482639, 7497371084737385, 13108091617372627),
   (10302731351055006, 33713554319482639, 10302731351055006, 13108091617372627),
   (28102833786847397, 23410822968427633, 4692010818419764, 14026801331588105),
   (25756828377637515, 23410822968427633, 2346005409209882, 16372806740797987),
   (25756828377637515, 24583825673032574, 1173002704604941, 17545809445402928),
   (26929831082242456, 21064817559217751, 5865013523024705, 15199804036193046),
   (13464915541121228, 34529733100338979, 13464915541121228, 7599902018096523),
   (6732457770560614, 34529733100338979, 6732457770560614, 14332359788657137),
   (33662288852803070, 21064817559217751, 12597471293585319, 8467346265632432),
   (16831144426401535, 21064817559217751, 16831144426401535, 4233673132816216),
   (35779125419211178, 18947980992809643, 16831144426401535, 2116836566408108),
   (17889562709605589, 18947980992809643, 17889562709605589, 1058418283204054),
   (35468481104621191, 1058418283204054, 17475370290152273, 1058418283204054),
   (35997690246223218, 529209141602027, 18004579431754300, 529209141602027),
   (35991955937580527, 529209141602027, 17998845123111609, 529209141602027),
   (35991955937580527, 2646045708010135, 17469635981509582, 2646045708010135),
   (21965046530805466, 24611092238815601, 16672955114785196, 2646045708010135),
   (10982523265402733, 35593615504218334, 10982523265402733, 13628568973412868),
   (8336477557392598, 29903183654835871, 8336477557392598, 13230228540050675),
   (4168238778696299, 34071422433532170, 4168238778696299, 17398467318746974),
   (29540427552854982, 25372188774158683, 4168238778696299, 17035711216766085),
   (14770213776427491, 25372188774158683, 14770213776427491, 10601974997731192),
   (23106691333820089, 25372188774158683, 16310199012804307, 2265497440338594),
   (24239440053989386, 25372188774158683, 17442947732973604, 1132748720169297),
   (12119720026994693, 25372188774158683, 12119720026994693, 13252468747163990),
   (10986971306825396, 27637686214497277, 10986971306825396, 16650714907671881),
   (5493485653412698, 33131171867909975, 5493485653412698, 16650714907671881),
   (2746742826706349, 35877914694616324, 2746742826706349, 16650714907671881),
   (13733714133531745, 27637686214497277, 13733714133531745, 13903972080965532),
   (34419414307546256, 20685700174014511, 13733714133531745, 6951986040482766),
   (17209707153773128, 20685700174014511, 17209707153773128, 3475993020241383),
   (29290553750901075, 20685700174014511, 8604853576886564, 12080846597127947),
   (5128860556645181, 32766546771142458, 5128860556645181, 17379965101206915),
   (21512133942216410, 16383273385571229, 5128860556645181, 16383273385571229),
   (27139340356679434, 16383273385571229, 10756066971108205, 16383273385571229),
   (31271509197688929, 5627206414463024, 14389889954299857, 5627206414463024),
   (34085112404920441, 2813603207231512, 17203493161531369, 2813603207231512),
   (35491914008536197, 1406801603615756, 17203493161531369, 1406801603615756),
   (34085112404920441, 7034008018078780, 12983088350684101, 7034008018078780),
   (34085112404920441, 3517004009039390, 16500092359723491, 3517004009039390),
   (35843614409440136, 1758502004519695, 16500092359723491, 1758502004519695),
   (35506827249917018, 1758502004519695, 17921807204720068, 1758502004519695),
   (31989823240877628, 8792510022598475, 14404803195680678, 8792510022598475),
   (15994911620438814, 24787421643037289, 15994911620438814, 8792510022598475),
   (7997455810219407, 32784877453256696, 7997455810219407, 16789965832817882),
   (23197313218279153, 16789965832817882, 6407347385461271, 16789965832817882),
   (31592296134688094, 8394982916408941, 14802330301870212, 8394982916408941),
   (24191130983752988, 32586113900161929, 15796148067344047, 8394982916408941)]

/-- Exponents from 462. -/
def certs12 : List (Nat × Nat × Nat × Nat) :=
  [(23197313218279153, 32586113900161929, 13808512536396377, 9388800681882776),
   (27891713559220541, 32586113900161929, 13808512536396377, 4694400340941388),
   (30238913729691235, 32586113900161929, 16155712706867071, 2347200170470694),
   (30238913729691235, 31412513814926582, 17329312792102418, 1173600085235347),
   (27891713559220541, 33759713985397276, 16155712706867071, 5868000426176735),
   (27891713559220541, 16879856992698638, 11011856566521903, 16879856992698638),
   (27891713559220541, 8439928496349319, 11011856566521903, 8439928496349319),
   (29739497343561558, 8439928496349319, 12859640350862920, 8439928496349319),
   (31749605664479417, 8439928496349319, 14869748671780779, 8439928496349319),
   (28534695576763687, 8439928496349319, 11654838584065049, 8439928496349319),
   (32954407431277288, 8439928496349319, 16074550438578650, 8439928496349319),
   (33357060708337282, 8439928496349319, 16477203715638644, 8439928496349319),
   (33558387346867279, 8439928496349319, 16678530354168641, 8439928496349319),
   (29439086417957618, 8439928496349319, 12559229425258980, 8439928496349319),
   (4119300928909661, 33961040623927273, 4119300928909661, 17483836908288629),
   (27278772634237789, 23159471705328128, 4119300928909661, 14920869847508806),
   (27278772634237789, 11579735852664064, 15699036781573725, 11579735852664064),
   (32176240497212369, 11579735852664064, 9016768791884241, 11579735852664064),
   (32176240497212369, 5789867926332032, 14806636718216273, 5789867926332032),
   (35071174460378385, 2894933963166016, 17701570681382289, 2894933963166016),
   (23491438607714321, 14474669815830080, 9016768791884241, 14474669815830080),
   (30728773515629361, 7237334907915040, 16254103699799281, 7237334907915040),
   (34347440969586881, 3618667453957520, 16254103699799281, 3618667453957520),
   (34347440969586881, 1809333726978760, 16254103699799281, 1809333726978760),
   (32538107242608121, 9046668634893800, 14444769972820521, 9046668634893800),
   (32538107242608121, 4523334317446900, 14444769972820521, 4523334317446900),
   (34799774401331571, 2261667158723450, 16706437131543971, 2261667158723450),
   (34799774401331571, 11308335793617250, 12183102814097071, 11308335793617250),
   (34799774401331571, 5654167896808625, 17837270710905696, 5654167896808625),
   (31535306942687348, 5654167896808625, 14572803252261473, 5654167896808625),
   (8918635355452848, 28270839484043125, 8918635355452848, 10433568773137429),
   (32730157161769549, 28270839484043125, 4459317677726424, 14892886450863853),
   (30500498322906337, 28270839484043125, 2229658838863212, 17122545289727065),
   (34959816000632761, 23811521806316701, 11148294194316060, 12663227612000641),
   (29385668903474731, 23811521806316701, 5574147097158030, 12663227612000641),
   (29385668903474731, 26598595354895716, 2787073548579015, 15450301160579656),
   (29385668903474731, 13299297677447858, 16086371226026873, 13299297677447858),
   (18873444774605888, 23811521806316701, 13935367742895075, 4938077031710813),
   (9436722387302944, 33248244193619645, 9436722387302944, 14374799419013757),
   (4718361193651472, 33248244193619645, 4718361193651472, 14374799419013757),
   (4718361193651472, 34127107545857009, 4718361193651472, 15253662771251121),
   (2359180596825736, 34127107545857009, 2359180596825736, 17612843368076857),
   (1179590298412868, 35306697844269877, 1179590298412868, 17612843368076857),
   (5897951492064340, 31767926949031273, 5897951492064340, 14074072472838253),
   (2948975746032170, 34716902695063443, 2948975746032170, 17023048218870423),
   (1474487873016085, 34716902695063443, 1474487873016085, 17023048218870423),
   (1474487873016085, 35789549760232784, 1474487873016085, 16621207411023679),
   (7372439365080425, 35789549760232784, 7372439365080425, 13672231664991509),
   (7372439365080425, 32639653610277242, 7372439365080425, 17894774880116392),
   (31064705535299471, 23692266170219046, 7372439365080425, 16319826805138621),
   (13169930655183079, 23692266170219046, 13169930655183079, 10522335515035967),
   (25016063740292602, 11846133085109523, 13169930655183079, 11846133085109523),
   (24354164955255824, 11846133085109523, 12508031870146301, 11846133085109523),
   (27001760095402936, 11846133085109523, 15155627010293413, 11846133085109523),
   (25347013132810991, 11846133085109523, 13500880047701468, 11846133085109523),
   (30442706194069780, 11846133085109523, 6750440023850734, 11846133085109523),
   (27067486182144413, 11846133085109523, 15221353097034890, 11846133085109523),
   (3375220011925367, 35604125342070046, 3375220011925367, 15352805270517844),
   (31302942718736491, 27927722706811124, 3375220011925367, 17802062671035023),
   (31302942718736491, 13963861353405562, 17339081365330929, 13963861353405562),
   (31302942718736491, 7213421329554828, 16876100059626835, 7213421329554828),
   (31302942718736491, 34909653383513905, 16876100059626835, 3606710664777414),
   (31302942718736491, 33106298051125198, 16876100059626835, 1803355332388707),
   (27696232053959077, 9016776661943535, 9662678730072007, 9016776661943535),
   (27696232053959077, 18356504357951306, 9339727696007771, 9016776661943535),
   (27696232053959077, 9178252178975653, 9339727696007771, 9178252178975653),
   (27615494295443018, 9178252178975653, 9258989937491712, 9178252178975653),
   (9258989937491712, 27373281019894841, 9258989937491712, 8855301144911417),
   (4629494968745856, 32002775988640697, 4629494968745856, 13484796113657273),
   (2314747484372928, 34317523473013625, 2314747484372928, 15799543598030201),
   (11573737421864640, 32002775988640697, 11573737421864640, 8855301144911417),
   (5786868710932320, 32002775988640697, 5786868710932320, 14642169855843737),
   (2893434355466160, 34896210344106857, 2893434355466160, 17535604211309897),
   (14467171777330800, 26215907277708377, 14467171777330800, 11748735500377577),
   (7233585888665400, 33449493166373777, 7233585888665400, 11748735500377577),
   (3616792944332700, 33449493166373777, 3616792944332700, 15365528444710277),
   (1808396472166350, 35257889638540127, 1808396472166350, 17173924916876627),
   (9041982360831750, 31641096694207427, 9041982360831750, 13557131972543927),
   (4520991180415875, 31641096694207427, 4520991180415875, 13557131972543927),
   (4520991180415875, 31644017478559276, 4520991180415875, 13560052756895776),
   (22604955902079375, 18081043937311651, 4523911964767724, 13557131972543927),
   (20342999919695513, 18081043937311651, 2261955982383862, 15819087954927789),
   (20342999919695513, 19212021928503582, 1130977991191931, 16950065946119720),
   (23735933893271306, 18081043937311651, 5654889955959655, 12426153981351996),
   (29949010883947304, 18081043937311651, 11867966946635653, 6213076990675998),
   (14974505441973652, 33055549379285303, 14974505441973652, 3106538495337999),
   (7487252720986826, 33055549379285303, 7487252720986826, 10593791216324825),
   (7487252720986826, 30507197918663647, 7487252720986826, 15532692476689995),
   (3743626360493413, 34250824279157060, 3743626360493413, 15532692476689995),
   (3743626360493413, 35843543942045595, 3743626360493413, 17125412139578530),
   (18718131802467065, 32099917581552182, 5336346023381948, 13381785779085117),
   (18718131802467065, 34768090593243156, 2668173011690974, 16049958790776091),
   (18718131802467065, 17384045296621578, 1334086505845487, 17384045296621578),
   (24054477825849013, 17384045296621578, 6670432529227435, 17384045296621578),
   (32746500474159802, 8692022648310789, 15362455177538224, 8692022648310789),
   (33757295533701479, 8692022648310789, 16373250237079901, 8692022648310789),
   (21224659091006134, 29916681739316923, 12532636442695345, 8692022648310789),
   (16373250237079901, 29916681739316923, 16373250237079901, 13543431502237022),
   (23144965988198412, 29916681739316923, 16373250237079901, 6771715751118511),
   (11572482994099206, 29916681739316923, 11572482994099206, 6771715751118511),
   (16373250237079901, 25115914496336228, 16373250237079901, 8742664259256327),
   (28931207485248015, 12557957248168114, 16373250237079901, 12557957248168114),
   (35210186109332072, 6278978624084057, 16373250237079901, 6278978624084057),
   (10094271612995844, 31394893120420285, 10094271612995844, 11206349894428597),
   (5047135806497922, 31394893120420285, 5047135806497922, 16253485700926519),
   (2523567903248961, 33918461023669246, 2523567903248961, 16253485700926519),
   (22006366318332545, 19482798415083584, 2523567903248961, 16959230511834623),
   (2523567903248961, 34324794494193895, 2523567903248961, 16659819171451168),
   (2523567903248961, 33565588618215194, 2523567903248961, 15900613295472467),
   (26877065922103441, 24353498018854480, 2523567903248961, 16782794309107597),
   (29400633825352402, 16782794309107597, 12617839516244805, 16782794309107597),
   (14700316912676201, 31483111221783798, 14700316912676201, 16782794309107597),
   (14700316912676201, 30441872523568100, 14700316912676201, 15741555610891899),
   (28359395127136704, 16782794309107597, 11576600818029107, 16782794309107597),
   (14179697563568352, 30962491872675949, 14179697563568352, 16782794309107597),
   (7089848781784176, 30962491872675949, 7089848781784176, 16782794309107597),
   (3544924390892088, 34507416263568037, 3544924390892088, 16782794309107597),
   (17724621954460440, 34507416263568037, 17724621954460440, 16782794309107597),
   (8862310977230220, 34507416263568037, 8862310977230220, 16782794309107597),
   (4431155488615110, 34507416263568037, 4431155488615110, 16782794309107597),
   (22155777443075550, 34507416263568037, 9804138622583063, 12351638820492487),
   (11077888721537775, 34507416263568037, 11077888721537775, 12351638820492487),
   (22792652492552906, 34507416263568037, 11077888721537775, 11714763771015131),
   (22792652492552906, 35781166362522749, 9804138622583063, 12988513869969843),
   (11396326246276453, 35781166362522749, 11396326246276453, 12988513869969843),
   (11396326246276453, 34985072550676054, 11396326246276453, 12192420058123148),
   (21996558680706211, 34985072550676054, 9008044810736368, 12988513869969843),
   (21996558680706211, 17492536275338027, 4504022405368184, 17492536275338027)]

/-- Exponents from 590. -/
def certs13 : List (Nat × Nat × Nat × Nat) :=
  [(19744547478022119, 17492536275338027, 2252011202684092, 17492536275338027),
   (19744547478022119, 18618541876680073, 1126005601342046, 17492536275338027),
   (24248569883390303, 18618541876680073, 5630028006710230, 12988513869969843),
   (21433555880035188, 18618541876680073, 2815014003355115, 15803527873324958),
   (29335319816697667, 18618541876680073, 10716777940017594, 7901763936662479),
   (10716777940017594, 28792041743294801, 10716777940017594, 7358485863259613),
   (5358388970008797, 34150430713303598, 5358388970008797, 12716874833268410),
   (5358388970008797, 33150382266678190, 5358388970008797, 17075215356651799),
   (26791944850043985, 22433604326660596, 4358340523383389, 13716923279893818),
   (26791944850043985, 11216802163330298, 15575142686713687, 11216802163330298),
   (32400345931709134, 5608401081665149, 15575142686713687, 5608401081665149),
   (21808574047519716, 27416975129184865, 16200172965854567, 5608401081665149),
   (4983370802524269, 33025376210850014, 4983370802524269, 13091893000752938),
   (21496058907949276, 16512688105425007, 4983370802524269, 16512688105425007),
   (27260717559399645, 16512688105425007, 10748029453974638, 16512688105425007),
   (30681512664071714, 5764658651450369, 13387536709720607, 5764658651450369),
   (32634732286386964, 5764658651450369, 15340756332035857, 5764658651450369),
   (16317366143193482, 22082024794643851, 16317366143193482, 5764658651450369),
   (4788048840292744, 33611342097544589, 4788048840292744, 14459146736373613),
   (2394024420146372, 36005366517690961, 2394024420146372, 16853171156519985),
   (1197012210073186, 36005366517690961, 1197012210073186, 16853171156519985),
   (598506105036593, 36005366517690961, 598506105036593, 17451677261556578),
   (598506105036593, 35786861274635892, 598506105036593, 17831678123538102),
   (598506105036593, 35848613788415736, 598506105036593, 17893430637317946),
   (598506105036593, 35879490045305658, 598506105036593, 17924306894207868),
   (598506105036593, 35755985017745970, 598506105036593, 17800801866648180),
   (598506105036593, 35833175659970775, 598506105036593, 17877992508872985),
   (598506105036593, 35572517928564881, 598506105036593, 17617334777467091),
   (2992530525182965, 35572517928564881, 2992530525182965, 17617334777467091),
   (31252646327605783, 28260115802422818, 2992530525182965, 16289993701690958),
   (31252646327605783, 14130057901211409, 17122588426394374, 14130057901211409),
   (31252646327605783, 22691352114408596, 8561294213197187, 14130057901211409),
   (31668943689957491, 5568763688014222, 14962652625914825, 5568763688014222),
   (34453325533964602, 2784381844007111, 17747034469921936, 2784381844007111),
   (25579808299003634, 28364190143010745, 17226662766982301, 2784381844007111),
   (25579808299003634, 13921909220035555, 11657899078968079, 13921909220035555),
   (12789904149501817, 26711813369537372, 12789904149501817, 13921909220035555),
   (12789904149501817, 26145810834270503, 12789904149501817, 13355906684768686),
   (23881800693203027, 13355906684768686, 10525894008434341, 13355906684768686),
   (30559754035587370, 6677953342384343, 17203847350818684, 6677953342384343),
   (28635783702562371, 35313737044946714, 15279877017793685, 6677953342384343),
   (28635783702562371, 17656868522473357, 10978915180089014, 17656868522473357),
   (10978915180089014, 33389766711921715, 10978915180089014, 11431936351743687),
   (5489457590044507, 33389766711921715, 5489457590044507, 16921393941788194),
   (5489457590044507, 35907984921116632, 5489457590044507, 13950154560938604),
   (27447287950222535, 13950154560938604, 13497133389283931, 13950154560938604),
   (34422365230691837, 6975077280469302, 13497133389283931, 6975077280469302),
   (34422365230691837, 3487538640234651, 16984672029518582, 3487538640234651),
   (32610280544073145, 3487538640234651, 15172587342899890, 3487538640234651),
   (35486602793327153, 3487538640234651, 14561370951919247, 3487538640234651),
   (33437225277719506, 3487538640234651, 15999532076546251, 3487538640234651),
   (23693689919329055, 27181228559563706, 16718612638859753, 3487538640234651),
   (20206151279094404, 17437693201173255, 2768458077921149, 17437693201173255),
   (10103075639547202, 27540768840720457, 10103075639547202, 17437693201173255),
   (5051537819773601, 32592306660494058, 5051537819773601, 17437693201173255),
   (25257689098868005, 32592306660494058, 17923071537241952, 7334617561626053),
   (25257689098868005, 16296153330247029, 8961535768620976, 16296153330247029),
   (25257689098868005, 20776921214557517, 4480767884310488, 16296153330247029),
   (22403839421552440, 20776921214557517, 1626918206994923, 17523084800567671),
   (31978840925333737, 20776921214557517, 11201919710776220, 9575001503781297),
   (26377881069945627, 20776921214557517, 5600959855388110, 15175961359169407),
   (23577401142251572, 20776921214557517, 2800479927694055, 17976441286863462),
   (29178360997639682, 15175961359169407, 14002399638470275, 15175961359169407),
   (14589180498819841, 29765141857989248, 14589180498819841, 15175961359169407),
   (29471751427814465, 14882570928994624, 14589180498819841, 14882570928994624),
   (14295790068645058, 30058532288164031, 14295790068645058, 15762742219518973),
   (7147895034322529, 30058532288164031, 7147895034322529, 15762742219518973),
   (25751108695565809, 18603213661243280, 7147895034322529, 11455318626920751),
   (7147895034322529, 35832908031636168, 7147895034322529, 14389222928668581),
   (7147895034322529, 32212244084463142, 7147895034322529, 17916454015818084),
   (30401912110876629, 23254017076554100, 7147895034322529, 16106122042231571),
   (30401912110876629, 11627008538277050, 7147895034322529, 11627008538277050),
   (25922798606922108, 16106122042231571, 9816676564690537, 16106122042231571),
   (12961399303461054, 29067521345692625, 12961399303461054, 16106122042231571),
   (35548220997423152, 29067521345692625, 6480699651730527, 16106122042231571),
   (32403498258652635, 9625422390501044, 13152653477650547, 9625422390501044),
   (32403498258652635, 4812711195250522, 17965364672901069, 4812711195250522),
   (34809853856277896, 2406355597625261, 17965364672901069, 2406355597625261),
   (25184431465776852, 12031777988126305, 13152653477650547, 12031777988126305),
   (12592215732888426, 24623993721014731, 12592215732888426, 12031777988126305),
   (30920101587458944, 24623993721014731, 6296107866444213, 12031777988126305),
   (15460050793729472, 24623993721014731, 15460050793729472, 9163942927285259),
   (31480539332221065, 9163942927285259, 13152653477650547, 9163942927285259),
   (29486184057038421, 9163942927285259, 11158298202467903, 9163942927285259),
   (19325063492161840, 28489006419447099, 10161120564876581, 9163942927285259),
   (10161120564876581, 35658594071549714, 10161120564876581, 15336352941796552),
   (10161120564876581, 27990417600651438, 10161120564876581, 17829297035774857),
   (24156329365202300, 13995208800325719, 10161120564876581, 13995208800325719),
   (35469249882586353, 3834088235449138, 16298808705340663, 3834088235449138),
   (35469249882586353, 1917044117724569, 16298808705340663, 1917044117724569),
   (30195411706502875, 32112455824227444, 16776102882430892, 1917044117724569),
   (22527235235604599, 32112455824227444, 12942014646981754, 9585220588622845),
   (22527235235604599, 16056227912113722, 6471007323490877, 16056227912113722),
   (30555349191661460, 8028113956056861, 14499121279547738, 8028113956056861),
   (31333902507944452, 8028113956056861, 15277674595830730, 8028113956056861),
   (31333902507944452, 8806667272339853, 13720567963264746, 8806667272339853),
   (15666951253972226, 24473618526312079, 15666951253972226, 8806667272339853),
   (7833475626986113, 32307094153298192, 7833475626986113, 16640142899325966),
   (14693759608618486, 24473618526312079, 14693759608618486, 9779858917693593),
   (31820498330621322, 24473618526312079, 7346879804309243, 17126738722002836),
   (15910249165310661, 24473618526312079, 15910249165310661, 8563369361001418),
   (15910249165310661, 26906597639696429, 15910249165310661, 10996348474385768),
   (15910249165310661, 21408423402503545, 15910249165310661, 5498174237192884),
   (15910249165310661, 34569585449217764, 15910249165310661, 2749087118596442),
   (15910249165310661, 33195041889919543, 15910249165310661, 17284792724608882),
   (27696867652726659, 17284792724608882, 10412074928117777, 17284792724608882),
   (27696867652726659, 8642396362304441, 10412074928117777, 8642396362304441),
   (35454424732124432, 8642396362304441, 9527235645211109, 8642396362304441),
   (35454424732124432, 7757557079397773, 12181753493931113, 7757557079397773),
   (17727212366062216, 25484769445459989, 17727212366062216, 7757557079397773),
   (8863606183031108, 34348375628491097, 8863606183031108, 16621163262428881),
   (8863606183031108, 29924179213957757, 8863606183031108, 12196966847895541),
   (4431803091515554, 34355982305473311, 4431803091515554, 16628769939411095),
   (2215901545757777, 34355982305473311, 2215901545757777, 16628769939411095),
   (2215901545757777, 36013154291677760, 2215901545757777, 16070040379857767),
   (2215901545757777, 33816269438375518, 2215901545757777, 16089057072313302),
   (2215901545757777, 34635347085249975, 2215901545757777, 16908134719187759),
   (2215901545757777, 33936935135808315, 2215901545757777, 16209722769746099),
   (11079507728788885, 29505132044292761, 11079507728788885, 7346116586714991),
   (11079507728788885, 31371827615329708, 11079507728788885, 9212812157751938),
   (11079507728788885, 26765421536453739, 11079507728788885, 15685913807664854),
   (6473101649912916, 35978233694205677, 6473101649912916, 16558928744466929),
   (3236550824956458, 35978233694205677, 3236550824956458, 16558928744466929),
   (1618275412478229, 35978233694205677, 1618275412478229, 16558928744466929),
   (26889631615733098, 25271356203254869, 1618275412478229, 17179979140863724),
   (30126182440689556, 22034805378298411, 8091377062391145, 13943428315907266),
   (15063091220344778, 22034805378298411, 15063091220344778, 6971714157953633),
   (7531545610172389, 29566350988470800, 7531545610172389, 14503259768126022)]

/-- Exponents from 718. -/
def certs14 : List (Nat × Nat × Nat × Nat) :=
  [(15622922672563534, 22034805378298411, 15622922672563534, 6411882705734877),
   (29846266714580178, 22034805378298411, 7811461336281767, 14223344042016644),
   (14923133357290089, 22034805378298411, 14923133357290089, 7111672021008322),
   (31945634660400513, 7111672021008322, 17722290618383869, 7111672021008322),
   (35501470670904674, 3555836010504161, 17722290618383869, 3555836010504161),
   (35529915387973142, 3555836010504161, 17750735335452337, 3555836010504161),
   (17764957693986571, 21320793704490732, 17764957693986571, 3555836010504161),
   (24862407356460659, 21320793704490732, 3541613651969927, 17779180052520805),
   (35522804208706025, 10660396852245366, 14202010504215293, 10660396852245366),
   (35522804208706025, 5330198426122683, 14202010504215293, 5330198426122683),
   (19532208930337976, 26650992130613415, 12413425730062537, 7118783200275439),
   (9766104465168988, 26650992130613415, 9766104465168988, 16884887665444427),
   (31534044363197909, 26650992130613415, 4883052232584494, 16884887665444427),
   (24415261162922470, 12001835432859933, 12413425730062537, 12001835432859933),
   (12207630581461235, 24209466014321168, 12207630581461235, 12001835432859933),
   (24312363588621819, 12104733007160584, 12207630581461235, 12104733007160584),
   (30364730092202111, 6052366503580292, 12207630581461235, 6052366503580292),
   (24312363588621819, 30261832517901460, 12413425730062537, 5949468929279641),
   (24312363588621819, 15130916258950730, 9181447329671089, 15130916258950730),
   (31877821718097184, 7565458129475365, 16746905459146454, 7565458129475365),
   (31877821718097184, 5949468929279641, 14029414930258261, 5949468929279641),
   (15938910859048592, 21888379788328233, 15938910859048592, 5949468929279641),
   (7969455429524296, 29857835217852529, 7969455429524296, 13918924358803937),
   (9989441929768951, 29857835217852529, 9989441929768951, 9878951358314627),
   (19923638573810740, 29857835217852529, 9989441929768951, 9934196644041789),
   (9961819286905370, 29857835217852529, 9961819286905370, 9934196644041789),
   (4980909643452685, 34838744861305214, 4980909643452685, 14915106287494474),
   (24904548217263425, 29857835217852529, 14997974216085217, 4953287000589104),
   (24904548217263425, 27381191717557977, 17474617716379769, 2476643500294552),
   (26142869967410701, 27381191717557977, 17474617716379769, 1238321750147276),
   (35363575075713253, 1238321750147276, 16788748823504113, 1238321750147276),
   (35982735950786891, 619160875073638, 17407909698577751, 619160875073638),
   (35982735950786891, 309580437536819, 17717490136114570, 309580437536819),
   (35982735950786891, 1547902187684095, 17407909698577751, 1547902187684095),
   (35792243133760538, 1547902187684095, 17217416881551398, 1547902187684095),
   (31827241256037124, 33375143443721219, 17896121566880269, 1547902187684095),
   (15913620628018562, 33375143443721219, 15913620628018562, 17461522815702657),
   (12817816252650372, 33375143443721219, 12817816252650372, 7739510938420475),
   (6408908126325186, 33375143443721219, 6408908126325186, 14148419064745661),
   (3204454063162593, 33375143443721219, 3204454063162593, 17352873127908254),
   (16022270315812965, 30170689380558626, 16022270315812965, 14148419064745661),
   (31107615006092278, 15085344690279313, 16022270315812965, 15085344690279313),
   (30639152193325452, 15085344690279313, 15553807503046139, 15085344690279313),
   (15553807503046139, 28765300942258148, 15553807503046139, 13211493439212009),
   (15553807503046139, 29936457974175213, 15553807503046139, 14382650471129074),
   (15553807503046139, 22745132738610676, 15553807503046139, 7191325235564537),
   (26926373872351477, 11372566369305338, 15553807503046139, 11372566369305338),
   (15553807503046139, 25755216840434412, 15553807503046139, 10201409337388273),
   (15553807503046139, 28431415923263345, 15553807503046139, 12877608420217206),
   (21992611713154742, 28431415923263345, 15553807503046139, 6438804210108603),
   (2676199082828933, 34870220133371948, 2676199082828933, 16136826553569417),
   (20111309149514907, 17435110066685974, 2676199082828933, 17435110066685974),
   (28828864182857894, 8717555033342987, 11393754116171920, 8717555033342987),
   (28828864182857894, 14758910983857041, 14069953199000853, 14758910983857041),
   (14414432091428947, 29173343075285988, 14414432091428947, 14758910983857041),
   (14414432091428947, 29001103629071941, 14414432091428947, 14586671537642994),
   (21707767860250444, 29001103629071941, 14414432091428947, 7293335768821497),
   (21707767860250444, 14758910983857041, 6948856876393403, 14758910983857041),
   (10853883930125222, 25612794913982263, 10853883930125222, 14758910983857041),
   (5426941965062611, 31039736879044874, 5426941965062611, 14758910983857041),
   (27134709825313055, 20185852948919652, 6948856876393403, 13236996072526249),
   (27134709825313055, 10092926474459826, 17041783350853229, 10092926474459826),
   (27134709825313055, 32181173062542968, 17041783350853229, 5046463237229913),
   (22088246588083142, 25232316186149565, 15800107391950296, 3144069598066423),
   (11044123294041571, 25232316186149565, 11044123294041571, 14188192892107994),
   (11044123294041571, 29182343034137139, 11044123294041571, 7094096446053997),
   (3950026847987574, 35470482230269985, 3950026847987574, 15720347990332115),
   (1975013423993787, 35470482230269985, 1975013423993787, 17695361414325902),
   (26622801523107034, 24647788099113247, 1975013423993787, 16747734403138099),
   (13311400761553517, 24647788099113247, 13311400761553517, 11336387337559730),
   (17261427609541091, 24647788099113247, 17261427609541091, 7386360489572156),
   (20954607854327169, 24647788099113247, 17261427609541091, 3693180244786078),
   (22801197976720208, 24647788099113247, 17261427609541091, 1846590122393039),
   (34602614620700363, 1846590122393039, 17983303519163012, 1846590122393039),
   (34843913473084052, 1846590122393039, 16378012249153662, 1846590122393039),
   (28501497470900260, 30348087593293299, 17421956736542026, 1846590122393039),
   (24808317226114182, 34041267838079377, 15575366614148987, 9232950611965195),
   (12404158613057091, 34041267838079377, 12404158613057091, 9232950611965195),
   (35626871838625325, 23222713225568234, 12404158613057091, 10818554612511143),
   (35626871838625325, 11611356612784117, 12404158613057091, 11611356612784117),
   (24015515225841208, 34041267838079377, 13989762613603039, 10025752612238169),
   (12007757612920604, 34041267838079377, 12007757612920604, 10025752612238169),
   (6003878806460302, 34041267838079377, 6003878806460302, 16029631418698471),
   (30019394032301510, 34041267838079377, 17953772614967909, 4021873805777867),
   (15009697016150755, 34041267838079377, 15009697016150755, 4021873805777867),
   (15009697016150755, 24525482427115066, 15009697016150755, 9515785410964311),
   (27469558025932220, 9515785410964311, 17953772614967909, 9515785410964311),
   (32766349834894732, 9515785410964311, 13734779012966110, 9515785410964311),
   (16383174917447366, 25898960328411677, 16383174917447366, 9515785410964311),
   (34090547787135360, 25898960328411677, 8191587458723683, 17707372869687994),
   (23250564423930421, 17707372869687994, 5543191554242427, 17707372869687994),
   (32104250858774418, 8853686434843997, 14396877989086424, 8853686434843997),
   (33759498299075203, 8853686434843997, 16052125429387209, 8853686434843997),
   (35992194972716060, 8853686434843997, 9431135668184069, 8853686434843997),
   (35703470356046024, 8853686434843997, 17996097486358030, 8853686434843997),
   (35559108047711006, 8853686434843997, 17851735178023012, 8853686434843997),
   (26705421612867009, 17563010561352976, 9142411051514033, 17563010561352976),
   (26705421612867009, 35486926893543497, 17923916332190521, 8781505280676488),
   (31096174253205253, 35486926893543497, 17923916332190521, 4390752640338244),
   (33291550573374375, 35486926893543497, 17923916332190521, 2195376320169122),
   (31096174253205253, 10976881600845610, 9142411051514033, 10976881600845610),
   (31096174253205253, 5488440800422805, 14630851851936838, 5488440800422805),
   (31096174253205253, 18292307526814029, 12803866726391224, 5488440800422805),
   (27434718578328062, 18292307526814029, 9142411051514033, 9149896475299996),
   (32009666815978060, 18292307526814029, 13717359289164031, 4574948237649998),
   (34297140934803059, 18292307526814029, 16004833407989030, 2287474118824999),
   (25147244459503063, 18292307526814029, 6854936932689034, 11437370594124995),
   (21719775993158546, 18292307526814029, 3427468466344517, 14864839060469512),
   (29152195523393302, 18292307526814029, 10859887996579273, 7432419530234756),
   (32868405288510680, 18292307526814029, 14576097761696651, 3716209765117378),
   (35718391157309475, 3716209765117378, 17137342331722585, 3716209765117378),
   (35718391157309475, 1858104882558689, 17137342331722585, 1858104882558689),
   (35511191962962283, 1858104882558689, 16930143137375393, 1858104882558689),
   (33653087080403594, 9290524412793445, 15072038254816704, 9290524412793445),
   (16826543540201797, 26117067952995242, 16826543540201797, 9290524412793445),
   (29885077516699418, 13058533976497621, 16826543540201797, 13058533976497621),
   (29885077516699418, 35407592365788687, 13317532969431611, 5522514849089269),
   (14942538758349709, 35407592365788687, 14942538758349709, 5522514849089269),
   (14942538758349709, 25175065562069198, 14942538758349709, 10232526803719489),
   (14942538758349709, 27530071539384308, 14942538758349709, 12587532781034599),
   (19652550712979929, 27530071539384308, 11775029886575550, 7877520826404379),
   (33417586482672083, 13765035769692154, 5887514943287775, 13765035769692154),
   (33417586482672083, 6882517884846077, 12770032828133852, 6882517884846077),
   (12770032828133852, 34412589424230385, 12770032828133852, 8872523767962681),
   (6385016414066926, 34412589424230385, 6385016414066926, 15257540182029607),
   (3192508207033463, 34412589424230385, 3192508207033463, 15257540182029607),
   (15962541035167315, 24835064803129996, 15962541035167315, 8872523767962681),
   (28380073436732313, 12417532401564998, 15962541035167315, 12417532401564998)]

/-- Exponents from 846. -/
def certs15 : List (Nat × Nat × Nat × Nat) :=
  [(34588839637514812, 6208766200782499, 15962541035167315, 6208766200782499),
   (23503186019539905, 29711952220322404, 17294419818757406, 6208766200782499),
   (4876887417192408, 35920718421104903, 4876887417192408, 16413168752335271),
   (2438443708596204, 35920718421104903, 2438443708596204, 16413168752335271),
   (1219221854298102, 35920718421104903, 1219221854298102, 17632390606633373),
   (6096109271490510, 35920718421104903, 6096109271490510, 17632390606633373),
   (3048054635745255, 35920718421104903, 3048054635745255, 17632390606633373),
   (19484386528425079, 35920718421104903, 3048054635745255, 16436331892679824),
   (28628550435660844, 13388277256934569, 15240273178726275, 13388277256934569),
   (14314275217830422, 27702552474764991, 14314275217830422, 13388277256934569),
   (34859690083680202, 27702552474764991, 7157137608915211, 13388277256934569),
   (17429845041840101, 27702552474764991, 17429845041840101, 10272707432924890),
   (17429845041840101, 33933692122784349, 17429845041840101, 16503847080944248),
   (17429845041840101, 25681768582312225, 17429845041840101, 8251923540472124),
   (17429845041840101, 21555806812076163, 17429845041840101, 4125961770236062),
   (22481804772972016, 21555806812076163, 925997960895853, 17851814968492751),
   (32796709198562171, 21555806812076163, 11240902386486008, 10314904425590155),
   (32796709198562171, 27176258005319167, 5620451193243004, 15935355618833159),
   (28102255966215020, 27176258005319167, 925997960895853, 17916278396360637),
   (14051127983107510, 27176258005319167, 14051127983107510, 13125130022211657),
   (34201821996872922, 27176258005319167, 7025563991553755, 13125130022211657),
   (17100910998436461, 27176258005319167, 17100910998436461, 10075347006882706),
   (31152038981543971, 27176258005319167, 3975780976224804, 15248915076644755),
   (29164148493431569, 27176258005319167, 1987890488112402, 17236805564757157),
   (28170203249375368, 27176258005319167, 993945244056201, 17236805564757157),
   (28170203249375368, 23200477029094363, 4969726220281005, 13261024588532353),
   (14085101624687684, 23200477029094363, 14085101624687684, 9115375404406679),
   (7042550812343842, 30243027841438205, 7042550812343842, 16157926216750521),
   (7042550812343842, 31491775397345711, 7042550812343842, 17406673772658027),
   (3521275406171921, 35013050803517632, 3521275406171921, 17406673772658027),
   (3521275406171921, 35112902432618421, 3521275406171921, 17506525401758816),
   (17606377030859605, 24549076214102658, 17606377030859605, 6942699183243053),
   (17606377030859605, 29880915137910934, 17606377030859605, 12274538107051329),
   (17606377030859605, 32546834599815072, 17606377030859605, 14940457568955467),
   (17606377030859605, 33879794330767141, 17606377030859605, 16273417299907536),
   (21605256223715812, 14940457568955467, 6664798654760345, 14940457568955467),
   (25743085680813373, 14940457568955467, 10802628111857906, 14940457568955467),
   (25743085680813373, 20341771624884420, 5401314055928953, 14940457568955467),
   (31144399736742326, 35282229193839887, 14593081908352082, 4137829457097561),
   (15572199868371163, 35282229193839887, 15572199868371163, 4137829457097561),
   (15572199868371163, 25427214531105525, 15572199868371163, 9855014662734362),
   (5717185205636801, 32123517696761407, 5717185205636801, 14971962079851004),
   (5717185205636801, 30354721862472706, 5717185205636801, 13203166245562303),
   (20894546136873154, 15177360931236353, 5717185205636801, 15177360931236353),
   (10447273068436577, 25624633999672930, 10447273068436577, 15177360931236353),
   (5717185205636801, 35084809725272482, 5717185205636801, 17933254108362079),
   (23259590068273042, 17542404862636241, 5717185205636801, 17542404862636241),
   (11629795034136521, 29172199896772762, 11629795034136521, 17542404862636241),
   (28976775273909843, 29172199896772762, 17837571770723460, 195424622862919),
   (28976775273909843, 14586099948386381, 14390675325523462, 14586099948386381),
   (21781437611148112, 14586099948386381, 7195337662761731, 14586099948386381),
   (35976688313808655, 195424622862919, 17997623010420107, 195424622862919),
   (18086056468335787, 18281481091198706, 17890631845472868, 195424622862919),
   (27226797013935140, 9140740545599353, 8945315922736434, 9140740545599353),
   (13613398506967570, 22754139052566923, 13613398506967570, 9140740545599353),
   (22558714429704004, 22754139052566923, 17868523480993948, 195424622862919),
   (34033496267418925, 22754139052566923, 11279357214852002, 11474781837714921),
   (28393817659992924, 22754139052566923, 5639678607426001, 17114460445140922),
   (28198393037130005, 17114460445140922, 11083932591989083, 17114460445140922),
   (28198393037130005, 8557230222570461, 11083932591989083, 8557230222570461),
   (35492272074991155, 8557230222570461, 9820581407279772, 8557230222570461),
   (26935041852420694, 15851109260431611, 11083932591989083, 15851109260431611),
   (13467520926210347, 29318630186641958, 13467520926210347, 15851109260431611),
   (13467520926210347, 28126836019531326, 13467520926210347, 14659315093320979),
   (13467520926210347, 27530938935976010, 13467520926210347, 14063418009765663),
   (12871623842655031, 28722733103086642, 12871623842655031, 15851109260431611),
   (27232990394198352, 14361366551543321, 12871623842655031, 14361366551543321),
   (13616495197099176, 27977861748642497, 13616495197099176, 14361366551543321),
   (13616495197099176, 30957347166419077, 13616495197099176, 17340851969319901),
   (6808247598549588, 30957347166419077, 6808247598549588, 17340851969319901),
   (3404123799274794, 34361470965693871, 3404123799274794, 17340851969319901),
   (3404123799274794, 35642402857477595, 3404123799274794, 15217660061828831),
   (1702061899637397, 35642402857477595, 1702061899637397, 16919721961466228),
   (1702061899637397, 35692851374931466, 1702061899637397, 16970170478920099),
   (1702061899637397, 34867044683839703, 1702061899637397, 17846425687465733),
   (8510309498186985, 29760858984927512, 8510309498186985, 12740239988553542),
   (8510309498186985, 31901048488837726, 8510309498186985, 14880429492463756),
   (8510309498186985, 32971143240792833, 8510309498186985, 15950524244418863),
   (9580404250142092, 32971143240792833, 9580404250142092, 13810334740508649),
   (4790202125071046, 32971143240792833, 4790202125071046, 13810334740508649),
   (2395101062535523, 35366244303328356, 2395101062535523, 16205435803044172),
   (11975505312677615, 32971143240792833, 11975505312677615, 9020132615437603),
   (22473324276735224, 32971143240792833, 11975505312677615, 10497818964057609),
   (11236662138367612, 32971143240792833, 11236662138367612, 10497818964057609),
   (5618331069183806, 32971143240792833, 5618331069183806, 16116150033241415),
   (28091655345919030, 10497818964057609, 17593836381861421, 10497818964057609),
   (14045827672959515, 24543646637017124, 14045827672959515, 10497818964057609),
   (14045827672959515, 26317650991468077, 14045827672959515, 12271823318508562),
   (33413668409271889, 12271823318508562, 8870021772254765, 12271823318508562),
   (33413668409271889, 6135911659254281, 15005933431509046, 6135911659254281),
   (32046613352771647, 6135911659254281, 13638878375008804, 6135911659254281),
   (13638878375008804, 30679558296271405, 13638878375008804, 17040679921262601),
   (6819439187504402, 30679558296271405, 6819439187504402, 17040679921262601),
   (3409719593752201, 34089277890023606, 3409719593752201, 17040679921262601),
   (23864078132516205, 20454358538764004, 3409719593752201, 17044638945011803),
   (30683517320020607, 13634919351259602, 17048597968761005, 13634919351259602),
   (30683517320020607, 6817459675629801, 17048597968761005, 6817459675629801),
   (18750488497825204, 25567948173455005, 11933028822195403, 6817459675629801),
   (11933028822195403, 34087298378149005, 11933028822195403, 10221240733758199),
   (34943192422367607, 23010163600172204, 11933028822195403, 11077134777976801),
   (34943192422367607, 11505081800086102, 11933028822195403, 11505081800086102),
   (427947022109301, 35700110872856159, 427947022109301, 17726335944265517),
   (29190651522324556, 28762704500215255, 427947022109301, 17636081925373429),
   (14595325761162278, 28762704500215255, 14595325761162278, 14167378739052977),
   (7297662880581139, 28762704500215255, 7297662880581139, 14167378739052977),
   (7297662880581139, 34348579292359190, 7297662880581139, 12455590650615773),
   (7297662880581139, 31769615407341873, 7297662880581139, 17174289646179595),
   (7297662880581139, 34128964905123784, 7297662880581139, 12235976263380367),
   (24252338139525328, 12235976263380367, 12016361876144961, 12235976263380367),
   (12126169069762664, 24362145333143031, 12126169069762664, 12235976263380367),
   (6063084534881332, 30425229868024363, 6063084534881332, 12235976263380367),
   (30315422674406660, 12235976263380367, 5843470147645926, 12235976263380367),
   (15157711337203330, 27393687600583697, 15157711337203330, 12235976263380367),
   (34972543269185362, 27393687600583697, 7578855668601665, 12235976263380367),
   (17486271634592681, 27393687600583697, 17486271634592681, 9907415965991016),
   (27986862377017309, 9907415965991016, 8172030445035277, 9907415965991016),
   (32940570360012817, 4953707982995508, 13125738428030785, 4953707982995508),
   (35417424351510571, 2476853991497754, 15602592419528539, 2476853991497754),
   (35417424351510571, 12384269957488770, 10648884436533031, 12384269957488770),
   (35417424351510571, 6192134978744385, 16841019415277416, 6192134978744385),
   (33189049622616248, 6192134978744385, 14612644686383093, 6192134978744385),
   (8420509707638708, 30960674893721925, 8420509707638708, 14119655478444509),
   (4210254853819354, 35170929747541279, 4210254853819354, 14119655478444509),
   (2105127426909677, 35170929747541279, 2105127426909677, 16224782905354186),
   (18638028587225478, 35170929747541279, 2105127426909677, 16532901160315801),
   (2105127426909677, 34246574982656434, 2105127426909677, 17405555567379018)]

/-- The certificates for `q = -1074, ..., 971`. -/
def certs : List (Nat × Nat × Nat × Nat) :=
  certs0 ++ certs1 ++ certs2 ++ certs3 ++ certs4 ++ certs5 ++ certs6 ++ certs7 ++ certs8 ++ certs9 ++ certs10 ++ certs11 ++ certs12 ++ certs13 ++ certs14 ++ certs15

end FastPrintf.Farey
