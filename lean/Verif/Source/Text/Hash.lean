import Verif.Source.Syntax

/-! Written by `tools/gen_source.py` from /repo/gostcrypto/gosthash/gost_34_11_2012.py. -/

namespace Gost.Src

/-- `_BLOCK_SIZE`, gost_34_11_2012.py 23-23. -/
def Hash.g_BLOCK_SIZE : Val := .int 64

/-- `_V_0`, gost_34_11_2012.py 25-25. -/
def Hash.g_V_0 : Val := .bytes [0, 0, 0, 0, 0, 0, 0, 0, 0, 0, 0, 0, 0, 0, 0, 0, 0, 0, 0, 0, 0, 0,
    0, 0, 0, 0, 0, 0, 0, 0,
    0, 0, 0, 0, 0, 0, 0, 0, 0, 0, 0, 0, 0, 0, 0, 0, 0, 0, 0, 0, 0, 0, 0, 0, 0, 0, 0, 0, 0, 0, 0,
    0, 0, 0]

/-- `_V_512`, gost_34_11_2012.py 28-37. -/
def Hash.g_V_512 : Val := .bytes [0, 2, 0, 0, 0, 0, 0, 0, 0, 0, 0, 0, 0, 0, 0, 0, 0, 0, 0, 0, 0,
    0, 0, 0, 0, 0, 0, 0, 0, 0,
    0, 0, 0, 0, 0, 0, 0, 0, 0, 0, 0, 0, 0, 0, 0, 0, 0, 0, 0, 0, 0, 0, 0, 0, 0, 0, 0, 0, 0, 0, 0,
    0, 0, 0]

/-- Row 0 of `_T`. -/
def Hash.g_T_0 : List Nat := [14996829921374828774, 1655675436240700197, 12151888845446597064,
    7692436852485539419,
    7944767383739642379, 7375912571862768299, 8531621007806830582, 5446419180642098421,
    17387244462428873288, 14232990454338706687, 10761307314750063307, 9939648241172599654,
    12719077154027957301, 11644492396479954044, 10191861674357729078, 15483300957473257118,
    4012342115537918347, 827838291506483100, 6525469606859508924, 17144227563332383717,
    15159047591150731982, 6777738565449644268, 2127729288458423481, 12467102638000644236,
    3425445086786567286, 6283365864194149720, 4508966634055461951, 14490396125176250383,
    9488508224170230254, 11995646853550501648, 1169503776548179293, 3236197049891167050,
    4139797763442523987, 665867157242705332, 14814669969903367263, 17966578582166538984,
    11270950048624637823, 13555477126688207045, 8279328341064508326, 8699652512864448814,
    1493669113326647565, 9533388786601185922, 11018628244778648367, 17324149991452802908,
    15808307391806257018, 7213694902063784067, 3606986015359070415, 2226993429167565701,
    16820088614930892725, 18290913999547727544, 14427389804108963099, 3362491544435630434,
    17903572209587165180, 16945995733695561117, 6202204220323106892, 7782725910730377251,
    4992423427324475949, 12377236200510680820, 13465331692562071229, 8762606059501956154,
    909032130396396784, 14652613859264363047, 16864886868563943561, 2911917226527387418,
    18417138018163606672, 11460145238230323267, 10824190352803931639, 5950058544532743196,
    11208017154533565459, 5698720643590432933, 4590093076103754027, 14394926370035295959,
    10571991900464206247, 15240068306373566426, 2527688998029402246, 11833675783578178872,
    12971281791233038437, 15970519254719887618, 746835149394006664, 14007646243168587667,
    10065555359681276238, 3038106099207656754, 4803145926997125441, 8342440384570031794,
    567617802345927532, 9984569794714072154, 8025735324585635615, 14331955203543759811,
    4929469829189035833, 16290056348496398377, 11743527566035098432, 1803493583038003433,
    17648415040191990540, 4866257953349776469, 15565157105099870278, 5904837599487181600,
    16695339415165526381, 584899160564492448, 4265810503903446395, 9177151576238383682,
    1071073603652986584, 9362213802507189190, 12800186023494381857, 7611627310280434023,
    17774427716384665892, 1902669556594646997, 3299185814952216158, 162323292021668392,
    10446084708851837839, 4383024360765511191, 12314141733873611744, 486614660218769016,
    15727198578190920302, 14070775876731277959, 7863729074315859255, 18227819528624071596,
    8951786643819447678, 18092837853767971008, 13798557130615543801, 7530500863912017011,
    14589642692825245491, 13546317240322401193, 990193778535137764, 8117357270855080334,
    16488006458478151249, 10110752856472599074, 17189219537225520345, 1718822681616686641,
    6961522769181906131, 12962438838960278281, 10509055879613183643, 1152200028548938700,
    5823834453039898164, 7773598444791552847, 10698177676900802527, 3101253293019121702,
    7457074164217006015, 5320195162284156637, 243449716865181500, 2289947023052076689,
    11581521242875666792, 15320977665957137590, 81161648191184148, 12404131484444605848,
    6075945013281335908, 2788856880649849282, 16051469674213695038, 324396990138905680,
    16569150477648649029, 17513186799718652000, 7123846060914028283, 16738944595712170657,
    14751575550509099339, 6031026536892922120, 1965816801922384577, 3931338956203361439,
    8861940517347756806, 13717413115700169453, 14976993188483796599, 17837398865668811824,
    5572461372037239437, 6858706557858047480, 2662949688993444842, 9659612878398253226,
    5509314122389360537, 0, 17063242011251912433, 13052302562288600433, 13908734339162384559,
    7294821348383980951, 1556781143949091865, 13303290219181737109, 12215018466141426908,
    6399492080795727508, 6480618509961472896, 6651796292448961220, 9407364192116677882,
    15077815490660066802, 9014933841900722282, 13133605082996744781, 4464185957374872323,
    8369614684611882462, 16132490389484749610, 4184807344621328495, 18029866704498503124,
    13845639919753442747, 9614409506144145302, 14169984133323833835, 5118365764737974277,
    12629425856870357668, 10887284767943080163, 13384310990289738113, 2401711544679111342,
    3561923520242669555, 14913863554906428259, 4058829818276389447, 3886047694019568547,
    16614230549985688697, 16163797141230236161, 8924929278139012626, 1331474846468077429,
    3688112457392680411, 10317874414808177950, 15646301141492436306, 8594609768612760290,
    2726061736819093246, 8432568231234711754, 1394428440333707873, 3480761923618622183,
    11896805404254128172, 15889533685482873878, 6606631250711679400, 12881294824059590173,
    3805079748905877175, 6732799438848024528, 1740381552367314429, 11397138921483160919,
    11144922739442661639, 11806533934296434260, 9114039532680445782, 9740598443380143550,
    4740280500255198845, 11081757882676158011, 4677133250592641897, 2064740540553908653,
    5635608617223108017, 405364986802432324, 16244782693329579797, 17450057183346050420,
    13214590630809517913, 7204814001741149167, 11333921219367103083, 16371077115282167101,
    15402121702330831266, 17711421412756690456, 5055377021101169937, 2338722779569817530,
    13636585996139949521, 12566419488560777136, 18354008401738586500, 6157071442428213104,
    2975029274371912206, 12058741320206447108, 10236730382702182410, 1232492524471570505,
    15564409771107462026, 17270240304030157261, 5257241564096297929, 2464735455726714258,
    7042525932786256327, 5383430437057708513, 9281104984569620178, 8180504468988773530,
    10634998217192492211, 9858627521614958194, 2852004074480194774]

/-- Row 1 of `_T`. -/
def Hash.g_T_1 : List Nat := [16020781120063279560, 1803328357492127077, 4858945115384074231,
    3950575839625518469,
    9529048142906567514, 18301667648762529785, 1108813352833195938, 7873852611041932237,
    9638819743617597312, 4364323801185615026, 2398360536387216280, 1799390525764624831,
    14425242656538491663, 10960202454796771498, 12255984678304175968, 3876565764214766838,
    4796471483616844589, 9368565070970942652, 4426823959205439592, 13579478131421658535,
    9737605932927552041, 10340693454341070519, 11170442055395443161, 5995874508989790934,
    14541785049308229589, 6121943503617667562, 11089124111183852656, 17851960332395882190,
    4057186521996334845, 15075364700965113450, 17482936491262531675, 3606388455605925834,
    15044408570452810416, 15813271641511751517, 4994595691461742609, 18159244266737259299,
    18031488175624162501, 224924677899329907, 13658840261646690685, 11329736538570251839,
    4643606057380146820, 8170101366277257277, 5247274052076714522, 2843634712633457790,
    6653764741899674996, 11856648851277863960, 5966053074084851212, 6973782895139854790,
    1053075329826327416, 5686957219799131644, 6128148527793546544, 7744966212764822571,
    6825189543235932381, 6335039532207739033, 17744440808909681172, 15945601692490313915,
    18383007306159026768, 13307234832199833576, 16755216110457359437, 4579640280547581377,
    14641156248060385916, 12594657050511293743, 17681129024655004519, 9287212114741674261,
    1701221534727831069, 143567289798857946, 15747411652460641159, 4948985270110618827,
    12903011632422560261, 16117030926776239378, 4274217762734258062, 7342806736664356691,
    7522333479813991768, 2708779702122154455, 207476186215560617, 9818312142090605963,
    8853646698977545680, 13244946099907381322, 2357279825774737218, 8483993473664995954,
    4724111818068163166, 15678469269051136756, 13128430510420221072, 2249718511765334659,
    5272591748466192064, 16373403122317982112, 2776630815808759972, 14362975481762735277,
    6748897444385354158, 10132696900489215940, 7194726172547692725, 3020746408739878662,
    10779409359942748833, 1478557495761493870, 12075365020592864619, 13793655551243721940,
    11296508816506342117, 8773415655487925411, 9925840600717099345, 15282768626797900031,
    10545183492837949853, 7005867263497735452, 7675725909834103025, 14776865141172536730,
    14767291351898952000, 15143744757149576985, 10428400470963811380, 6446852894758673377,
    3536276771707901625, 13876620889109245841, 1880712834197509142, 16976718510965009726,
    18366666706800567946, 15494734391924314508, 9223162618811069253, 17030723444206855682,
    3446931972246104288, 11922518051421309122, 17932678991593290092, 8044714566578636388,
    899695262891359953, 5346640886603386803, 7609605358721751426, 16499535732793881244,
    7424177041890759418, 622456526930891934, 5165985204832904632, 13525396405372417691,
    1613975629095627463, 3743188935298671376, 10639201290400879943, 3525594259049595491,
    2150892601541107498, 10693280557715627643, 9510997664088023142, 8872220406569654538,
    6866296227128558599, 3761167278933387308, 18141268156351485983, 14011458549576899128,
    4228633590610731860, 7835003908488177431, 11724393515011376126, 17402130862849554728,
    12625622116164413941, 1349613906234605704, 5480101227398385749, 12893446223168812767,
    14245607346849435908, 15903377905448854625, 5697665705733517606, 12405217564964358278,
    16709823123492672495, 16580910402249951029, 8114372000315616487, 16151338377287850195,
    14144854079418156510, 6514673741809760914, 2028745036443421680, 7951840676504081086,
    9717889148906479347, 3257488053753699657, 5462048584050449257, 2888449390839178204,
    2623779414765477133, 0, 2217625486366293593, 15594576874019769902, 10268075589934467693,
    449848170471514086, 16340201650559610234, 12822221799022172076, 16274629296091548681,
    7212776911211787145, 14316247955933196407, 15489664063088018774, 11167638920063980803,
    8998286907834995254, 10187317820343184158, 2569772316994557489, 7072552358222933103,
    6202751171352790083, 17201589763969569707, 3101505317318492847, 558485074769857340,
    3227640092592097683, 15264790611728153539, 11395330363578842956, 11991499428840008113,
    739279269719302455, 8664752777909958777, 1388453396622152786, 6599683241336188488,
    12180291873383642643, 13732290088541980686, 8249767866405689678, 2010769185903198412,
    4499143453925984539, 15413922291244229669, 7420230276096312864, 12387164593051452346,
    17329504340327656946, 17537531160815029377, 369639636906606229, 12526236892216204380,
    16823321717796837527, 17627634965749073853, 674806955088625732, 845690623854802413,
    3095326542374540917, 1547806179781594036, 11518612624262917014, 10468357065557663982,
    13353953699910271794, 8377608645786683048, 10042658910560564472, 11766608922037065508,
    1271666011600462331, 13937977416666102603, 8548435521660023553, 9989191378980839458,
    5616893326001226895, 16890581328717527524, 17241573161845475185, 4156831343068283431,
    9015744611689039596, 1178765317173785889, 8600794883889031131, 9079622133368661919,
    9303525910822147535, 17124732030673646296, 6379875802289901371, 3327029748415724602,
    14848068094778778857, 3975920340366592351, 351057548220787279, 17952369803412155830,
    11649261946259972749, 12175230202662118089, 13055541902363327971, 973430231520913931,
    2474631233414644459, 8323529084266646932, 5896542754160037759, 5776631596258909093,
    10914823129051414280, 16502365395455878726, 10846691549505399762, 11552986167345329751,
    13029080298485475641, 14983725497790902323, 14090847207132991202, 5066349040802640226,
    14614703855279197862, 13424616887636124225, 12686538423804035958]

/-- Row 2 of `_T`. -/
def Hash.g_T_2 : List Nat := [14764151130261336645, 620745253452480431, 7170371354478543620,
    15203605647463896210,
    12104514164105891566, 5616375817416440342, 9576064487610061563, 545142251616668746,
    1840415404509817501, 3076816780185585867, 16210705581819076021, 13181178439287888860,
    4655765800686771985, 15262288292932894691, 14116852178442830240, 967704752989906183,
    15993374854088042359, 342320036591677913, 10719319177470799032, 5733492639588199668,
    8676232990602936187, 16269106631494596292, 891007692783537782, 5530953135517340007,
    18369405683592952674, 5875991211011295779, 7908089112272280464, 13095449890847876687,
    16747385435018224154, 5188655642672603326, 14489315743873132781, 1164083840287178307,
    17757809467469202637, 12703753599638486247, 13887328821791194163, 17546243485117636197,
    5817298602163052882, 16110489192477159829, 17429161856445515911, 12638943314855080257,
    13551808818723844753, 8333329281937734983, 2719861874677791534, 4885292800615670402,
    14421906413051904924, 17977673556417476392, 17487551992180618516, 16327778422427175767,
    4221179734651483784, 9693178835879642137, 17292153162716999248, 11865664233353507709,
    12233664004143994490, 10239006662060653494, 850552765312385596, 1402653215185847248,
    3175939251395899376, 10180619988232767013, 2169261616483133143, 17663390550955571550,
    11461501366116429444, 85714207561706353, 15302723196717183913, 7287520887976551487,
    3605676990221371687, 13722933642454475891, 1026094932781897876, 9135574439929960512,
    14660473288275508751, 8256622359585822262, 4033359129032594319, 11403090455100737013,
    8879051520642450152, 2463002853672171364, 7053292190262318566, 18198245675027836288,
    3862201594369721709, 697442331525125342, 6811230057957505478, 12789176247219509142,
    171160018304620258, 15109189137167935745, 13248595502026567853, 12368751244418187416,
    11227267738987503453, 6351877321657769725, 18283959848187578097, 14157515946035760618,
    8526791872987965423, 4491371790726137681, 4396673666873670338, 8743931579300238346,
    3947926637113932030, 17121001942201350322, 2805305279135909565, 10376999144117394785,
    1231502002127476018, 16864502256895276280, 4826890634005776883, 3794792297866047004,
    3135499373384246202, 6694122039957974820, 1935115932566705934, 4338263838416359859,
    9386975557909706176, 10921856095967072555, 5359806862929196636, 13010027226471664958,
    14966689190346493910, 15651077374800205486, 15496499378462756410, 13945738615847065410,
    10548156678504549251, 16949926038768410505, 5274078341366336463, 15907669563026590726,
    15736520806135376701, 5119503887236322139, 3555980726376690868, 7382217954126223788,
    6590727208353260398, 4926005702714158792, 14215925723600299675, 5002431046872466873,
    18437096661335543827, 11074159786936650175, 11627133277012699605, 5970409028114053040,
    10121936295596944724, 12562245137194244656, 10804750551867623369, 8198235727533288357,
    14575040762021991806, 9851761816273411213, 13452688811012789674, 10081567885892477214,
    1708856473426981385, 12906293059786506612, 17206729364353287457, 13317592782706164552,
    9910445526473553916, 13394018161266436153, 6505014135083665439, 1623432725955778936,
    13781335843449523970, 5666075560348206981, 16674372200130646527, 8432376462035786364,
    11933354146095994892, 12467827278114973603, 4104100579879510122, 6976875711406816919,
    11168856811176916012, 2634156532520407135, 14831560444589889844, 9778883061639524200,
    2011540227947838591, 7718908375431380139, 8373692717517598989, 15565372066977152479,
    14274595110529800968, 13511090994172493531, 18027090613191756475, 14351010489696481401,
    11268005698449347351, 0, 1573734057906676971, 8061223461534846322, 6896943113662517943,
    11762264496410525495, 16597947939067067022, 12292053084323769321, 4162510391845980955,
    2327882902448955782, 8793347329267755417, 6146178317674281978, 12838876014880844293,
    10854447915391662682, 9233832413173424930, 9301531053839337555, 9472679800193687217,
    3488571446366183365, 13628234214076914144, 1782014302901600748, 2110589867325741892,
    428034226284190376, 3018429006678390104, 8139552000579911892, 10997743255913571022,
    17891959401126370393, 6087485725350400139, 17352464761921627126, 15379429019197790424,
    2052188783315922997, 3347061610537023762, 12409134703651359954, 7601802823739910729,
    5427223960002698541, 10004860981348403823, 4732191161638433888, 9050129908915332563,
    12174971446205299979, 8603498811866336414, 8982431302651350690, 16042789504644651748,
    11559443380796408484, 7651500160454006746, 2873005019153034700, 5061101738461280298,
    12018801056518251935, 6047107240176819393, 14881256681691636903, 17586693438564848175,
    3691109464541930070, 1084786391384093669, 2530702575822199829, 16444846299813981292,
    10462430536349333008, 7440628847619289821, 7993815229764937219, 11344422211639179366,
    6419567200065959308, 9221278647829312305, 238851030431874451, 6204567353729893993,
    2941723218582937129, 3405744221604057699, 15032483297928053360, 17816500977167593404,
    15804220511834423372, 7111960477780928629, 791861289948326221, 7211104391288295246,
    16404202666997325862, 7822657685655187681, 14040436781676210897, 10315713550077710535,
    9643763110708803978, 11676551406387958854, 7516371414958424376, 16503247367087343389,
    4567787221877943328, 1317229451223574689, 3252645056251118721, 10615564875873050866,
    6281265548225752344, 18094781574174843338, 16814803613642951019, 4297595148202794489,
    15437816750862689611, 6761811901839410261, 477451256248428347, 2245685895371328934,
    2413588227845229303, 17053583745975866307, 1506315913666580378]

/-- Row 3 of `_T`. -/
def Hash.g_T_3 : List Nat := [2320087374693644805, 5719209754774381873, 15344968402344195761,
    9396378522975337099,
    13517671522791893381, 14517893297586704281, 3289585166342119073, 2194422202269271414,
    13555861311762187768, 13016237459721971134, 16656163478890573158, 5253101879342254412,
    4812898377434546581, 17268062543537818912, 8149275110868556354, 10066445237542473228,
    15225603668590385868, 12191063307605761174, 12905774649131600323, 1432224081074282962,
    12848202668761750786, 10008207219417045709, 16605314455930501543, 11870138519851579442,
    5004250396549262824, 12804990902947225948, 16725253902700355933, 18428088053500186796,
    12139490831763359831, 978529526181848228, 16491934786153697592, 11438142419733600098,
    732993552781117657, 4273982091657313169, 14286392907163157410, 14898357968277431268,
    15886069998029248247, 708638407138063495, 1465986126796164527, 17638027266513046708,
    15934247396724703798, 5352588184630714835, 16539582486530180601, 17695106596957591669,
    9880264609302603411, 6559084273135036574, 11746310026582053967, 4449335781227758381,
    3035011549083218652, 17816054832342511850, 13117866180572368161, 919603488650096741,
    9759340094612225641, 13286148322469254619, 17871913729983577297, 3019397248150802050,
    14345107494867621731, 1097362773642366011, 11697043776382320782, 13652488417638207801,
    5413132634553578770, 7909129220654184363, 17424528359919011926, 12052405796108829804,
    7295884259285702637, 556320636409441405, 4388844399924746220, 13977770282819629023,
    4487481272322899827, 2849346480598996600, 11650166236669836496, 2800553338224165561,
    366621570969060578, 18157460338970902671, 1039738102615038202, 11523312895768282019,
    8877746371250819739, 2493984735765172890, 16185627841419542811, 6238298085049257018,
    15751800659975827019, 3836460342747308907, 2676294094227046119, 6767088510282879010,
    16298549109340514692, 10603758886215267270, 17449714736352687112, 8028842627157532468,
    10278818518572927726, 9453580706668342858, 3777009022124537770, 16109133278862387881,
    14731111003277577083, 7824343496386356074, 5968143091536305177, 1888660633022944597,
    17545653556534403273, 8278040155680581148, 10976251601648693214, 1654730189087319344,
    15663563615944659477, 4181387719565602640, 827365096447908888, 6460552953851576321,
    6777930655889878140, 306800625468133411, 15496266559182310127, 10556269773216196359,
    10910505618408596453, 8819014139819394650, 5083191892253807030, 12358345456980325385,
    13883610188978043678, 2243741177486741943, 6941929889067815695, 13731170428598611303,
    14787589734084075450, 6683059061043741923, 15139778364669742605, 1160172879970786700,
    2626551480603044390, 16998136334594448643, 193358789913356447, 9666798413180086952,
    2931971072476322371, 4082995960922195919, 14424628163270155096, 499630455769364668,
    7131523401393503120, 11025941387176262431, 16057684206024277608, 10435286353456566168,
    6018044326889064664, 14688237037070460678, 12580570089193255147, 8974660178948161254,
    9279762346244428308, 10091229965707321969, 15838837548406373002, 8362774292359536288,
    11967690234420990125, 1858955261635127563, 5310234037885853069, 17080615922142602687,
    7672635907906100182, 9088993202633987705, 17965618892296874000, 4179004943692288782,
    6990089781475788750, 3341529530529833727, 17331863275483126935, 7183025164891713361,
    10372576165381611055, 9820866151136522834, 5616063725052792238, 11168232626163615553,
    7402153298307099571, 11217043412263310208, 6069745939631858853, 1702837562631270897,
    13111543029920067967, 14075427550503733056, 17032033542400307582, 15580011552317851348,
    18177710423489228018, 0, 6508252928261667935, 3640503826637967126, 10186080071806957232,
    1348601442542253331, 10705175256846819259, 3470964946849294217, 11332739795874900796,
    2406578922524618436, 7553767476075066185, 1773059382815555018, 16269710153115375066,
    7602963013936899976, 9550357153258439223, 16810653334847731100, 3734279151533349847,
    13824242340921473446, 12746047359129564573, 15123869394621100627, 1517505774541609326,
    14190143564132051773, 286413024150043742, 18236001475866376243, 6155127865493844068,
    3946370957870997301, 8456056967321209441, 8762568372896872964, 11246195419944878077,
    8704785629896584901, 2129547851938642216, 4872226810457511252, 4698189768461680075,
    13460999020236422468, 1247139743251908941, 3388965918511691326, 8547964183296603711,
    16911855549393897922, 16386186597411732805, 1973323469691470228, 7212314689372980012,
    11956016858023406835, 17755492738693211179, 4544630765357902770, 3565762190490661704,
    15445857701643263534, 7723062443531325207, 18062592382991651918, 15039136532809442962,
    613315330652479558, 5848647206772088903, 10826265269091694372, 5623253290867798512,
    8644379976777982718, 9068873100886698535, 6865585822045173949, 10486328598409812825,
    18368706895457387629, 12410191165338982516, 13212290414899255776, 12664210371452249130,
    7943035001321491445, 8092813920709807747, 6412852391016830144, 7489137496080170866,
    11599809863626680337, 13346022130426347802, 10792618973168520058, 14591768518571340743,
    5800047320741786758, 9646383642316543734, 2079209019540614633, 15394216802664817264,
    4639881175437306122, 9184509535464604344, 3238525380743219808, 2579172855526295131,
    17218108617525484001, 4910562774881614121, 12310255727160713416, 12497105200521579701,
    13979893573948773249, 9340236221262055125, 14247979135230869500, 5178112573250274679,
    3119304623419958813, 6324631560907806971, 8338124726278599389, 14958389813856139045,
    5523451468713335151, 96679968334812353, 4004591297912343540]

/-- Row 4 of `_T`. -/
def Hash.g_T_4 : List Nat := [1804303645561188926, 3414564928644964841, 8826902743556372053,
    3678169468562197919,
    5483028549166638466, 12839490870164452792, 6007599541430339788, 4245870974354337847,
    1219642172907949974, 5863970350922153239, 1426637866096676526, 8329499613195619325,
    7293460681989249819, 5926847591591509039, 901996504954577888, 15499308758529126051,
    2775869065158040641, 11038740892243459834, 980564833416484611, 8122583090029955781,
    12106874252675499710, 8252688313299173150, 13137990692282048275, 15232325352834679816,
    4165047539325464847, 6537082023027094884, 1061388303880967739, 15007527470103561520,
    4372598463690682183, 5356305457107221234, 16244570852480564596, 6828844005741486031,
    1634736421828301030, 2900055638038661754, 12635315454714441005, 17209841429097045932,
    4319935728839132372, 16434726402830164796, 3189565836107981009, 7166733185135723627,
    11415663884216161641, 2646876563779348890, 4967369675677166793, 14333465189155378646,
    9240067846936071364, 225573111445307704, 10348916004151094812, 15085459198915457491,
    1127567343755846360, 10505061022754158513, 451145037279633264, 17278763754541083471,
    4094364856749802988, 13739217894535059032, 10142064351349321508, 18237832524400234754,
    776381720613993616, 2123060872304924821, 3026796356720902049, 13074760477241761323,
    9305689516017956903, 7010732288709669296, 7542466544349531160, 2438760495322740690,
    2361878727220396849, 6699855903445002772, 8414336326019407982, 17555879090087872313,
    2586880092266676745, 5039677419028043818, 15617770698185854075, 16172264156596341143,
    853819707876968563, 9080375331516374270, 13324264418503575848, 18112076961735675506,
    1885681234769490694, 5632287248797225049, 5707966074104112314, 5292871832700943306,
    14021463361927085949, 10436629070511965010, 1356511591660649037, 18033580071624325777,
    1735309813114226397, 1482113217594025277, 11101401495548739522, 3920616765481948119,
    15907272102215329488, 10850456683140488226, 3839795465519223535, 14505916431900440334,
    13400012551588806091, 14183230124323430413, 16659524318849344004, 10712610914214373881,
    4580146175316881023, 18318577856841699386, 12079126417429636198, 8890201085145809590,
    3470619621865131175, 10205431931930516423, 12911867843933651291, 6053592709615805279,
    646272098254178635, 12557878514850748878, 9854814747123107215, 12758255086884762752,
    13463244900622023923, 13813844551221273275, 14659524790051603157, 14849132859291557021,
    6214097213063763588, 11489727591217389962, 3107049094019418946, 5174286234278374897,
    2047311623096740982, 6907342047472479020, 9446921771307617788, 9368919626903222559,
    13208115849450073072, 18160465889521083873, 6279086546886369895, 11334980120984556625,
    6378829302158147775, 15745483385327139232, 1707114478485218309, 17970840307556219817,
    8952521925169686821, 161643615999915483, 7840966349619799731, 16586096163746125543,
    4804617751974081465, 16504781247489071071, 14252722018760479982, 5103108780454484242,
    7217212288695988216, 10079671967765365943, 7424700593695698624, 530837114112846739,
    9531829881394685551, 7356337889370479139, 15422498574823004736, 388346999380401736,
    4445532962863324068, 1293141774615853941, 2963424300454411929, 9159436322932353053,
    10268664314251860735, 11665281258783882006, 14786393061939518885, 15682189467080128664,
    8745445994659510125, 2712499281397177721, 8665263526924469134, 17330527053848937985,
    15166774150608122091, 6133214335435724732, 2186432824420587949, 16068770565298901771,
    17653805487095770282, 11853695178956989790, 11600222539923853301, 10787798213961833754,
    2520135847322613482, 0, 12015198039168749701, 14712399797093214534, 3350074738898785546,
    15359206783190621048, 5218314535265292073, 11173213351073123105, 12427909648270634005,
    13588987226428121987, 7679340362327570883, 14089824984484596638, 16909098637244019975,
    14919744034864294014, 14586661866349442614, 12332303219582044038, 7616460892100196603,
    16307862539962121292, 18385815799283803353, 8189256918584606246, 9933944909096317292,
    17904732688533245770, 17490890838083171290, 9756689373468305239, 13531116106740893712,
    7091615064334364808, 11727939623807515182, 5550830464468947297, 713581410075442600,
    16759980659016646876, 14434174984443970541, 13882478482664131238, 10920018890086656193,
    16827781457067603007, 2853872292399425698, 323287231984429739, 5800111271866173940,
    6456197019857646684, 13657979977124026208, 3545808073164863556, 9608710497860473484,
    8573723725737694645, 3771362464791029260, 9689946245708747700, 4508333169251048092,
    3268697114254873650, 10965807509193771545, 15824543225123474755, 15292534105110572955,
    4723163230487229057, 1553360967820890590, 2254305181080907086, 10015182928510693460,
    17717663415677147209, 16379038912018303151, 12495217878257342710, 4878047023183611738,
    8492269102247498893, 10585742651989161609, 11807630617803738829, 6941239243714266451,
    10662060275700744810, 12185441464963723869, 17410147632252662498, 8639276009782157654,
    9016941811265117638, 1960308938939271141, 17146547477566103188, 4653107235269969506,
    12687008385143898211, 8066458028199831435, 7912708914327622224, 16132067858335492072,
    3608606144348027260, 13001262027086129864, 17780401053264320881, 16984776310981722596,
    17861151886912826770, 11264298520159953074, 7749952586369404192, 3996935472081250100,
    80822418044728547, 13958725828490739269, 6765964639669133047, 7993593952928486248,
    12266125330198672229, 17071991263034813047, 6604321014022046087, 5425228831020355089,
    15987453487130022451, 11934516445365162429, 14408582193850425653]

/-- Row 5 of `_T`. -/
def Hash.g_T_5 : List Nat := [7884360690673758346, 4229988680144045891, 16509657934225197320,
    13731662091537019193,
    12882272295211679425, 12279422142781726764, 11108343363413344747, 15982811717865531796,
    1023464176459720743, 5953806681838519435, 11743293910371443063, 9673983872750211493,
    14839874666500421154, 18333229431845260763, 9950503947520319069, 7464881323799303694,
    6479838958941986798, 2150320025267137967, 17173139044027044461, 3065959290275158261,
    7768491166058748406, 16286302080680844693, 2838544162962025196, 16903517393942174926,
    8143289031230873796, 17975607840819353926, 4800734192802798397, 5069301847005975966,
    10974005503366686260, 17816841736240738657, 3477207782141206983, 8393581151604544390,
    5454200485134280583, 1977820635265254611, 5336317674550303334, 1628702425057113802,
    13369550070632867236, 15638819973290501943, 10844506146612596243, 9832754560598964610,
    4329693734564294207, 10477039581122157198, 13104772848699746908, 1002316287956021785,
    8123817450343849253, 12451499320283924816, 6225750233520130600, 2458318110873639342,
    2800067129256744717, 1931480967804418354, 5009451183430504352, 8277093151698926330,
    1533108837753842932, 2341326448389799537, 18062480647620871032, 12998197413883287485,
    14957140258777141757, 16169943323503999562, 15274602095125938611, 10063315674112369596,
    1511499227515113749, 4682651676809460962, 2567875989502485583, 8659386459796397182,
    2046928348708360270, 13615249569423726310, 12070126643094934069, 17797519833017814144,
    12728503874134661406, 15103372337403340396, 4702673030421790979, 6054511810836278775,
    12382114695234362829, 7499579606458811336, 7348514155064275409, 17431176728425994269,
    13953977862905346522, 8813525404883467169, 2164994259822327697, 6597421062255884337,
    9287896721226660057, 9117972659309999362, 14320597923899845959, 10782618642109338669,
    661629067092835514, 9455833805722362599, 12762044669445956863, 6330108400931796937,
    14721860041021311939, 4254967734907730594, 18092521715405684377, 3112875118740399380,
    125923594147773921, 14222395749621299065, 8486087099266182759, 17547227368944009154,
    3785244107737198436, 1778432600275197677, 5554327820771626747, 9320870185449440568,
    1322990948246386793, 11452273510739791688, 14856584651197099036, 13540514591441060475,
    511870076939146397, 3335510089505707606, 8621895138429454776, 479028388419905916,
    12498547238522205361, 4916377836497777217, 16409937967678447732, 788822923521091204,
    8314061117774202651, 6364252461279863311, 13240087895410658691, 1806257706863174412,
    9521552581963953786, 1170806100400807862, 15884482054328931445, 13273638773257295941,
    4837143658242352860, 14998864492327574413, 1667755654663375659, 10437854279325378415,
    3602555180387965990, 9929215596340102243, 3455740953342290871, 4138546577895857533,
    11572899897988007592, 14450055379486704992, 12587314782895533711, 1261244456175444567,
    17318772919574701564, 13640360452101647111, 11611526630966459209, 9031240865077112636,
    12228864006292437522, 15810875346536612072, 394412054692524866, 2432314508170265488,
    18280204811197700069, 7006844330343792498, 278346198497942078, 16810171483082163952,
    18162748720714082820, 7669743797692376087, 9166748306592876771, 889372471590932472,
    3612514438768772632, 617497785983336795, 11979270359018008532, 2668158837283114291,
    5319466677421293656, 17663574700115351230, 3285092965046078568, 6499223501511427536,
    10291059285135905022, 16117791668142018123, 5524704457816617754, 344074004607323811,
    15509320517218438928, 16273883768771774379, 7842383856428453227, 10934795099601040370,
    15339487595368764718, 0, 2977050733467402955, 14013687513914270692, 6843083487325801331,
    12614721978361074542, 4596710564914050049, 15375166417883359439, 16628121123136934710,
    16786858859456576273, 16945362413292347695, 16474528884972811497, 11211603212057885706,
    7977566138855156404, 9799757767624813636, 14340487226930729126, 5180997731363154047,
    11280701947172792471, 9001067694500156125, 5676802573628429509, 1433107396230432136,
    6713572130567065933, 10572492156393652400, 5871789863780081333, 14499257746735741057,
    17019246249822909874, 11843717564392409099, 15457323698217759473, 7160428156947634349,
    5989635181614578026, 5726136755369928996, 5219060730325499321, 6865978405987415698,
    3988783069436589402, 4443213711933756382, 10164005890983594688, 3955391676911487163,
    6177439773473968150, 10138327712113800993, 8509623126890771545, 11093528116291623893,
    8001028422964991829, 11480230444570931881, 3835023588467167877, 5819661247466791764,
    17454571744020906531, 8760359772340445599, 17118143278270859347, 14651347214497734494,
    6671019204036865196, 16680676442236497623, 2949792923608203050, 13776501623558130904,
    12932183848534803232, 17926981566392116391, 9405346057035095814, 10672634266718448076,
    14106892912099548677, 13114872569354416226, 13842132554152903739, 2645981896492773586,
    15151542334773001298, 1120074597807199686, 4500667440295315936, 814351717187214181,
    14186135707905903256, 11953125744419190250, 13427144261134073754, 4093856693608292508,
    7125167056442697036, 172188691849570271, 14621873511624303295, 6954139586848965267,
    15768471792190979337, 17288298821723041676, 2284666520480811632, 18434334846510379066,
    8930832123182515776, 17626738531755322207, 10335322655615773983, 3719239275968789497,
    7225027691790830640, 3182251027389772169, 15616057156749957846, 7361072929112976367,
    11765602627536428182, 16002055797624255402, 11327191261696103798, 10594251169015938385,
    12108765231826225139, 9627578312237681563, 7614607569662344745]

/-- Row 6 of `_T`. -/
def Hash.g_T_6 : List Nat := [14069383757960722302, 6601876756937142135, 12517068920052008416,
    5916040036815203718,
    3849277851845729769, 18126777867012137015, 8816361633245169558, 11330161758279369227,
    893209141869861107, 17687052750145133666, 5391758708148224125, 7102355669925669485,
    16322430585793765279, 12953205496969200876, 423967304552176130, 1804725524226817960,
    10717369649995677946, 11767843666643433909, 14734434311339825528, 2604960590806201059,
    9113370928218001351, 12324565675244529943, 17929204611784758978, 1897625930223618397,
    15819699736165128837, 13078223754135922715, 10001710758578045430, 6693395487758684627,
    1246877061712064266, 13338113768833429736, 9355456780569536417, 13123836490680033006,
    9229088369342150130, 2195091506890850572, 4292257437309723068, 14015608149263263021,
    6099518636483903857, 5409477760446190126, 2101101779678066681, 7995562939114222238,
    16620495399044323278, 1987411368021760782, 3735534939621257502, 15922469073655227425,
    6921956260593700555, 5095276525830510734, 2547781257418198087, 10771117512667271849,
    4851558797077234316, 11958164789734724930, 10119902832491179265, 799517226316244567,
    1302623186826566143, 18333446454105717301, 7344674516440503497, 9822965005839197520,
    9913304615484225283, 13843617804826444171, 10473546365173357304, 13720035502163906124,
    12220165193294941617, 16274593795459737962, 3386660550720718567, 15083581130279628417,
    1786417136983387643, 4111277612234687770, 2844226767071675414, 188896447307719846,
    6808510159658366325, 18036437982221038180, 6512098718293654820, 5209617669142570203,
    4614544691242202233, 12604338589029528341, 8222555220526667572, 298135476206323793,
    9653029283196940272, 13421970687363515933, 8348951118537590119, 18423224201295145062,
    16116674103859925716, 7812314270723626552, 9460472985774310151, 14824219767727115051,
    781787989577348100, 1097545755618110982, 16571496714228146491, 11015503501982914569,
    6413561000250395601, 16148769659870083897, 16026306748189032583, 11503260281822848685,
    13512320178922984526, 6041846867914260437, 983012176686402208, 8013309496113782989,
    6339875398895908740, 14908077646115044830, 4408181355641015627, 7218296214373189274,
    1490673956378146056, 12426701840065124275, 3609148682737378125, 4589759312890931693,
    485307887131061495, 17440238558925644486, 7400419660088140348, 13635016686060468409,
    18245041541587373248, 4031981288869542223, 1192539873960017241, 15729896682759424214,
    12726349231488414233, 3404397466593236148, 6395260014310152578, 8458118805010049424,
    686637310728372977, 9203174238716976532, 2790461050153670213, 17230966232089597247,
    3551177834962834872, 4740930672978945578, 8720119818489180515, 11534232669555429184,
    4201899973418284015, 15379957370631382736, 5299974858423760520, 10019447417221501861,
    2433230087342221537, 10317477322588494836, 3288121563582017554, 14140556988149156314,
    13809821232624065567, 9406707527159107924, 11115436126723079343, 13616708006156069610,
    3106896430615223525, 2307423530852907698, 7902663780872242283, 5037306929971572347,
    7156693133360150590, 11831768907628594961, 15029261520956832978, 14611666221391197583,
    15624334971842636912, 14266371245045078921, 15559811284760150646, 7454195011690754159,
    16916237610002009917, 12780124564501864522, 11312442688063344728, 10648368505027690078,
    16934520707470843246, 15135949536813914228, 2493451753631079956, 4911482502928907304,
    15261781381064559143, 17738302566806923927, 9703117594138482949, 15433415128580640805,
    5149588717409503965, 8906728731821217221, 8702390857433228080, 12010532253591069623,
    10945341516051756559, 0, 17632723262665461297, 6153284078791660322, 10522544094292470797,
    10818955516396938332, 3906157135361813276, 3197781696708977217, 9018218993023744306,
    8161215902882505153, 11660064790562250003, 1599033237156680110, 13969996363987555288,
    1428437427817679788, 15642625787636137507, 4093558283716908873, 16674243536861988253,
    14367412306657050415, 539627477864709796, 17131596431408214425, 12622067534180671814,
    4797810950713102559, 14629413036559345628, 2731329260335341744, 3794965935413333946,
    12064289998177104356, 17864109105378179268, 18226740847100141203, 14926386049263267725,
    5688168755867355180, 6213507005586580951, 5802579435438197024, 2991218664073852995,
    9757447356226833238, 6711132128484066176, 242654484555249397, 4389898240254123800,
    17566607244762247317, 13320367227738661563, 15940198291804976754, 12306274583767563076,
    12130361866891173858, 1725411814906938365, 17041238949598700490, 11412903076234212606,
    15326199349288662147, 7698554483870415567, 2083354945920755114, 6898849752995931942,
    17946941543964722321, 14313075100315839868, 5706452145863989887, 16833497239154850248,
    10299176352955697575, 1079254955729419349, 13023886274796649032, 8520620050426552165,
    17213246887264356204, 16376742485918698956, 4499963962039319486, 2901440900576963088,
    3088595718209916598, 13249651023259421885, 10209680853216608082, 7047770774583942296,
    16743701904610683803, 5507751753240489098, 9527222468405345699, 3497429715063228395,
    8403798937519193027, 7716863145185650844, 16445110441036821352, 2285441291111813983,
    11205231735875923708, 8646452152844209462, 14436298854527963433, 596269939152687266,
    126396174768673363, 7604563766600272954, 7514778052044922473, 5856909215444622195,
    14526648622844117882, 11033786875672087130, 17336383291162969696, 11713523783247768550,
    17390149025999049779, 5597547380311408345, 8999927920135924577, 8107458139707323282,
    10419234191512422571, 12826827210806695615, 1544449580980397915]

/-- Row 7 of `_T`. -/
def Hash.g_T_7 : List Nat := [16591073898053972432, 2717085303194761750, 14443165131220032424,
    6576332390511288170,
    863069724348846190, 12364065528451108454, 17747388259433591414, 17693311849952292171,
    5257886438263653361, 18388638621926541509, 14677311295805064341, 7401938927912888713,
    3873430931949926832, 8968384715907354529, 3891415866600138381, 11408969147902179286,
    10051348982654044215, 11300661043864493323, 13563839231176760154, 16573091852818099949,
    14910612278431627474, 17043171072417682526, 13357964466163607325, 10133157442261507757,
    8560443928516176431, 6378211438794997847, 4574501553864105022, 1146093564063439305,
    17151200982161538691, 1185632357948392358, 6764019065490062352, 5365771212091189548,
    6015059598099124281, 12972183629644878857, 6872018205959509709, 16760148882108882425,
    9202609495104344220, 14201854625342793916, 12029833374783585650, 3336951714131389048,
    965865579684967188, 9369565666511417988, 3391160715626930072, 6673902350225918448,
    8857268294825045211, 9459682407487014756, 14964840944768372018, 9645241387109950494,
    13062300509602554345, 13268146268764738301, 1985536642513638344, 7108223297540317230,
    18226551012021393400, 11354957897113938155, 5542313256831765078, 2533356463100303724,
    3282874618864022853, 17639381692831553707, 13653936302806085306, 4190193661499039865,
    17354110305489719564, 2825385440488542411, 9943208021279564522, 1931730180050609704,
    10444863120636124159, 4831797856215602079, 17801474529888257942, 2041167104618677586,
    1419778117532032155, 11903765066290995791, 3103633138851124799, 15556530936010523079,
    12083831684449978514, 15745877143708398291, 9663283364776524579, 4082021896479345316,
    7311838950535313076, 180372299864271581, 9853232017732507402, 10607029761966310594,
    5650486102836879499, 3610925162266685226, 4723485642561124674, 12869942757422921587,
    7782831729257630727, 6486091814822439562, 2275312179377199727, 14090166187339582406,
    4172206937772523332, 2995630716225649890, 4669626403474246818, 16850477252761085977,
    875836825476482804, 6189217070523331395, 5066712921838268376, 2371264715879810641,
    7873072164890950119, 11560671250628877832, 8911427141841525051, 4777501028543424127,
    15565663454169962510, 14327983946483906433, 2425335601897305009, 7491757150872493161,
    2663298514356195318, 15376179528098556698, 6782062002344207149, 2941544419792095490,
    10331279485994647952, 1705056651829531964, 16186527745441796778, 8677197541547869702,
    7963177360326436570, 9753117112631512771, 3981744263096980333, 12414271000688285948,
    9148734745269085564, 13856016445239923963, 17990998229149739967, 8327617951594157672,
    3700969465860692682, 12183701204475438267, 16483062933664422669, 10241461148538942576,
    5906760578843179748, 2479410904363822220, 15655832971637288430, 3592944206891151383,
    15275758206935205984, 683125414101514931, 11171643952756231057, 14730691058598171151,
    3783544556444699728, 5704484573958821227, 16130202628731358868, 2771156630664652075,
    13834012554582279271, 15949835024746947657, 4376304874819502851, 10498861566198640159,
    7502908372889601440, 13152406395790048980, 1470905800566295041, 11009471543646000300,
    7221583138996667220, 14036235894324067878, 4484192965699807710, 5816942215693799172,
    5012702627552211173, 6928142386668309235, 18098861030055346530, 11614546026292276200,
    5420052663719632076, 592816685880348499, 13910102851589398811, 11462828378474988086,
    476621763234702202, 17133215367631872446, 8614303302290923471, 3502774576018228727,
    10223413402387557197, 17936769427990879839, 16868458067677181732, 12309768540380363654,
    11063489797524283724, 0, 17408319332562527468, 8147411679330008245, 12648499493966366657,
    10893712787072503141, 1805596730032847125, 10785823867129341880, 15859948500402655657,
    10731542424165929560, 9261562414822922329, 14148048171260370268, 18045074215253668994,
    17462391749859343313, 7682965931774537597, 5596472239608840118, 270258815560556349,
    16039874118023625588, 3049702990379705311, 8053010959342359354, 15286273229647240954,
    13538324391800212928, 10839838146096216197, 16958344451965911748, 386581700168432711,
    11849606210878166959, 16384728541963980183, 9351518610058407353, 12594481375849984545,
    17516198338629635633, 7198320377835460046, 5120731167067232824, 11794900716368789813,
    8731195876909249510, 90328536687932896, 1365991463380576635, 8434371908073207058,
    15835921299805505331, 2221225747181776783, 5924803646370735577, 16294822383702440055,
    18334567727377202469, 14623365626867446133, 7018118503369309971, 16681258930547868720,
    3229068021579661477, 1650985629915947228, 12129841839081296219, 2095097388851998898,
    13242362730007579444, 15005505579374745437, 18280496545198449176, 6297241211743328670,
    566791255125546650, 6099120129211025059, 6207265234025196670, 13744036411918954887,
    9022666302357912129, 4280222554823792025, 7592864715621986368, 12468410047768571164,
    12779841670856992846, 4958563418731169029, 1524851495198900193, 8380074945713127666,
    6468045177866483127, 17241370638745914211, 7773082786155731613, 4466211058774718179,
    11740619138718299349, 1751387863358606581, 1239861033085204038, 13448068571731032096,
    15095690472885805757, 12690008063193062830, 9555000837265740286, 8093393569995819349,
    1055908661886561321, 296537535556471207, 773163400336795022, 5311761053276829201,
    9961252050141019607, 14784477738577766383, 14497236161529966152, 10552870770657390882,
    14382192838868812385, 16276836342003754826, 15185729426764397952, 11117504769914076785,
    12960183167076041363, 8273478878667924360, 15466222199258821671]

/-- `_T`, gost_34_11_2012.py 40-560. -/
def Hash.g_T : Val := .tuple [ints Hash.g_T_0, ints Hash.g_T_1, ints Hash.g_T_2, ints Hash.g_T_3,
    ints Hash.g_T_4, ints
    Hash.g_T_5, ints Hash.g_T_6, ints Hash.g_T_7]

/-- Row 0 of `_C`. -/
def Hash.g_C_0 : List Nat := [7, 69, 166, 242, 89, 101, 128, 221, 35, 77, 116, 204, 54, 116, 118,
    5, 21, 211, 96, 164, 8, 42,
    66, 162, 1, 105, 103, 146, 145, 224, 124, 75, 252, 196, 133, 117, 141, 184, 78, 113, 22, 208,
    69, 46, 67, 118, 106, 47, 31, 124, 101, 192, 129, 47, 203, 235, 233, 218, 202, 30, 218, 91,
    8, 177]

/-- Row 1 of `_C`. -/
def Hash.g_C_1 : List Nat := [183, 155, 177, 33, 112, 4, 121, 230, 86, 205, 203, 215, 27, 162,
    221, 85, 202, 167, 10, 219,
    194, 97, 181, 92, 88, 153, 214, 18, 107, 23, 181, 154, 49, 1, 181, 22, 15, 94, 213, 97, 152,
    43, 35, 10, 114, 234, 254, 243, 215, 181, 112, 15, 70, 157, 227, 79, 26, 47, 157, 169, 138,
    181, 163, 111]

/-- Row 2 of `_C`. -/
def Hash.g_C_2 : List Nat := [178, 10, 186, 10, 245, 150, 30, 153, 49, 219, 122, 134, 67, 244,
    182, 194, 9, 219, 98, 96, 55,
    58, 201, 193, 177, 158, 53, 144, 228, 15, 226, 211, 123, 123, 41, 177, 20, 117, 234, 242,
    139, 31, 156, 82, 95, 94, 241, 6, 53, 132, 61, 106, 40, 252, 57, 10, 199, 47, 206, 43, 172,
    220, 116, 245]

/-- Row 3 of `_C`. -/
def Hash.g_C_3 : List Nat := [46, 209, 227, 132, 188, 190, 12, 34, 241, 55, 232, 147, 161, 234,
    83, 52, 190, 3, 82, 147, 51,
    19, 183, 216, 117, 214, 3, 237, 130, 44, 215, 169, 63, 53, 94, 104, 173, 28, 114, 157, 125,
    60, 92, 51, 126, 133, 142, 72, 221, 228, 113, 93, 160, 225, 72, 249, 210, 102, 21, 232, 179,
    223, 31, 239]

/-- Row 4 of `_C`. -/
def Hash.g_C_4 : List Nat := [87, 254, 108, 124, 253, 88, 23, 96, 245, 99, 234, 169, 126, 162,
    86, 122, 22, 26, 39, 35, 183,
    0, 255, 223, 163, 245, 58, 37, 71, 23, 205, 191, 189, 255, 15, 128, 215, 53, 158, 53, 74, 16,
    134, 22, 31, 28, 21, 127, 99, 35, 169, 108, 12, 65, 63, 154, 153, 71, 71, 173, 172, 107, 234,
    75]

/-- Row 5 of `_C`. -/
def Hash.g_C_5 : List Nat := [110, 125, 100, 70, 122, 64, 104, 250, 53, 79, 144, 54, 114, 197,
    113, 191, 182, 198, 190, 194,
    102, 31, 242, 10, 180, 183, 154, 28, 183, 166, 250, 207, 198, 142, 240, 154, 180, 154, 127,
    24, 108, 164, 66, 81, 249, 196, 102, 45, 192, 57, 48, 122, 59, 195, 164, 111, 217, 211, 58,
    29, 174, 174, 79, 174]

/-- Row 6 of `_C`. -/
def Hash.g_C_6 : List Nat := [147, 212, 20, 58, 77, 86, 134, 136, 243, 74, 60, 162, 76, 69, 23,
    53, 4, 5, 74, 40, 131, 105,
    71, 6, 55, 44, 130, 45, 197, 171, 146, 9, 201, 147, 122, 25, 51, 62, 71, 211, 201, 135, 191,
    230, 199, 198, 158, 57, 84, 9, 36, 191, 254, 134, 172, 81, 236, 197, 170, 238, 22, 14, 199,
    244]

/-- Row 7 of `_C`. -/
def Hash.g_C_7 : List Nat := [30, 231, 2, 191, 212, 13, 127, 164, 217, 168, 81, 89, 53, 194, 172,
    54, 47, 196, 165, 209, 43,
    141, 209, 105, 144, 6, 155, 146, 203, 43, 137, 244, 154, 196, 219, 77, 59, 68, 180, 137, 30,
    222, 54, 156, 113, 248, 183, 78, 65, 65, 110, 12, 2, 170, 231, 3, 167, 201, 147, 77, 66, 91,
    31, 155]

/-- Row 8 of `_C`. -/
def Hash.g_C_8 : List Nat := [219, 90, 35, 131, 81, 68, 97, 114, 96, 42, 31, 203, 146, 220, 56,
    14, 84, 156, 7, 166, 154, 138,
    43, 123, 177, 206, 178, 219, 11, 68, 10, 128, 132, 9, 13, 224, 183, 85, 217, 60, 36, 66, 137,
    37, 27, 58, 125, 58, 222, 95, 22, 236, 216, 154, 76, 148, 155, 34, 49, 22, 84, 90, 143, 55]

/-- Row 9 of `_C`. -/
def Hash.g_C_9 : List Nat := [237, 156, 69, 152, 251, 199, 180, 116, 195, 182, 59, 21, 209, 250,
    152, 54, 244, 82, 118, 59,
    48, 108, 30, 122, 75, 51, 105, 175, 2, 103, 231, 159, 3, 97, 51, 27, 138, 225, 255, 31, 219,
    120, 138, 255, 28, 231, 65, 137, 243, 243, 228, 178, 72, 229, 42, 56, 82, 111, 5, 128, 166,
    222, 190, 171]

/-- Row 10 of `_C`. -/
def Hash.g_C_10 : List Nat := [27, 45, 243, 129, 205, 164, 202, 107, 93, 216, 111, 192, 74, 89,
    162, 222, 152, 110, 71, 125,
    29, 205, 186, 239, 202, 185, 72, 234, 239, 113, 29, 138, 121, 102, 132, 20, 33, 128, 1, 32,
    97, 7, 171, 235, 187, 107, 250, 216, 148, 254, 90, 99, 205, 198, 2, 48, 251, 137, 200, 239,
    208, 158, 205, 123]

/-- Row 11 of `_C`. -/
def Hash.g_C_11 : List Nat := [32, 215, 27, 241, 74, 146, 188, 72, 153, 27, 178, 217, 213, 23,
    244, 250, 82, 40, 225, 136, 170,
    164, 29, 231, 134, 204, 145, 24, 157, 239, 128, 93, 155, 159, 33, 48, 212, 18, 32, 248, 119,
    29, 223, 188, 50, 60, 164, 205, 122, 177, 73, 4, 176, 128, 19, 210, 186, 49, 22, 241, 103,
    231, 142, 55]

/-- `_C`, gost_34_11_2012.py 562-670. -/
def Hash.g_C : Val := .tuple [ints Hash.g_C_0, ints Hash.g_C_1, ints Hash.g_C_2, ints Hash.g_C_3,
    ints Hash.g_C_4, ints
    Hash.g_C_5, ints Hash.g_C_6, ints Hash.g_C_7, ints Hash.g_C_8, ints Hash.g_C_9, ints
    Hash.g_C_10, ints Hash.g_C_11]

/-- `Hash.new`, gost_34_11_2012.py 673-700. -/
def Hash.f_new : FunDef where
  params := ["name", "kwargs"]
  defaults := []
  static := true
  body :=
    [.if_ (.cmp .notIn (.name "name") (.tuple [.str "streebog512", .str "streebog256"]))
        [.raise "GOSTHashError" "GOSTHashError: unsupported hash type"]
        [],
     .assign (.name "data") (.meth (.name "kwargs") "get" [.str "data", .builtin "bytearray"
         [.bytes []]]),
     .ret (.new "GOST34112012" [.name "name", .name "data"])]

/-- `GOST34112012.__init__`, gost_34_11_2012.py 732-754. -/
def GOST34112012.m___init__ : FunDef where
  params := ["self", "name", "data"]
  defaults := []
  static := false
  body :=
    [.assign (.attr (.name "self") "_name") (.str ""),
     .assign (.attr (.name "self") "_buff") (.builtin "bytearray" []),
     .assign (.attr (.name "self") "_num_block") (.int 0),
     .assign (.attr (.name "self") "_pad_block_size") (.int 0),
     .assign (.attr (.name "self") "_hash_h") (.builtin "bytearray" []),
     .assign (.attr (.name "self") "_hash_n") (.builtin "bytearray" []),
     .assign (.attr (.name "self") "_hash_sigma") (.builtin "bytearray" []),
     .expr (.meth (.name "self") "_hash_init" [.name "name"]),
     .if_ (.cmp .eq (.name "name") (.str "streebog256"))
        [.assign (.attr (.name "self") "oid") (.new "ObjectIdentifier" [.str
            "1.2.643.7.1.1.2.2"])]
        [.assign (.attr (.name "self") "oid") (.new "ObjectIdentifier" [.str
            "1.2.643.7.1.1.2.3"])],
     .if_ (.cmp .ne (.name "data") (.builtin "bytearray" [.bytes []]))
        [.expr (.meth (.name "self") "update" [.name "data"])]
        []]

/-- `GOST34112012._hash_init`, gost_34_11_2012.py 757-766. -/
def GOST34112012.m__hash_init : FunDef where
  params := ["self", "name"]
  defaults := []
  static := false
  body :=
    [.assign (.attr (.name "self") "_name") (.name "name"),
     .assign (.attr (.name "self") "_buff") (.builtin "bytearray" [.bytes []]),
     .assign (.attr (.name "self") "_num_block") (.int 0),
     .assign (.attr (.name "self") "_pad_block_size") (.int 0),
     .assign (.attr (.name "self") "_hash_h") (.builtin "bytearray" [.glob "Hash._BLOCK_SIZE"]),
     .assign (.attr (.name "self") "_hash_n") (.builtin "bytearray" [.glob "Hash._BLOCK_SIZE"]),
     .assign (.attr (.name "self") "_hash_sigma") (.builtin "bytearray" [.glob
         "Hash._BLOCK_SIZE"]),
     .if_ (.cmp .eq (.attr (.name "self") "_name") (.str "streebog256"))
        [.assign (.attr (.name "self") "_hash_h") (.builtin "bytearray" [.bin .mul (.glob
            "Hash._BLOCK_SIZE") (.bytes [1])])]
        []]

/-- `GOST34112012._hash_add_512`, gost_34_11_2012.py 768-777. -/
def GOST34112012.m__hash_add_512 : FunDef where
  params := ["op_a", "op_b"]
  defaults := []
  static := true
  body :=
    [.assign (.name "op_a") (.builtin "bytearray" [.name "op_a"]),
     .assign (.name "op_b") (.builtin "bytearray" [.name "op_b"]),
     .assign (.name "op_c") (.int 0),
     .assign (.name "result") (.builtin "bytearray" [.glob "Hash._BLOCK_SIZE"]),
     .for_ "i" (.builtin "range" [.glob "Hash._BLOCK_SIZE"])
        [.assign (.name "op_c") (.bin .add (.bin .add (.index (.name "op_a") (.name "i")) (.index
            (.name "op_b") (.name "i"))) (.bin .shr (.name "op_c") (.int 8))),
         .assign (.index (.name "result") (.name "i")) (.bin .band (.name "op_c") (.int 255))],
     .ret (.name "result")]

/-- `GOST34112012._hash_lps`, gost_34_11_2012.py 779-814. -/
def GOST34112012.m__hash_lps : FunDef where
  params := ["data"]
  defaults := []
  static := true
  body :=
    [.assign (.name "internal") (.builtin "bytearray" [.glob "Hash._BLOCK_SIZE"]),
     .assign (.slice (.name "internal") (some (.int 0)) none) (.meth (.bin .bxor (.bin .bxor
         (.bin .bxor (.bin .bxor (.bin .bxor (.bin .bxor (.bin .bxor (.index (.index (.glob
         "Hash._T") (.int 0)) (.index (.name "data") (.int 0))) (.index (.index (.glob "Hash._T")
         (.int 1)) (.index (.name "data") (.int 8)))) (.index (.index (.glob "Hash._T") (.int 2))
         (.index (.name "data") (.int 16)))) (.index (.index (.glob "Hash._T") (.int 3)) (.index
         (.name "data") (.int 24)))) (.index (.index (.glob "Hash._T") (.int 4)) (.index (.name
         "data") (.int 32)))) (.index (.index (.glob "Hash._T") (.int 5)) (.index (.name "data")
         (.int 40)))) (.index (.index (.glob "Hash._T") (.int 6)) (.index (.name "data") (.int
         48)))) (.index (.index (.glob "Hash._T") (.int 7)) (.index (.name "data") (.int 56))))
         "to_bytes" [.int 8, .str "little"]),
     .assign (.slice (.name "internal") (some (.int 8)) none) (.meth (.bin .bxor (.bin .bxor
         (.bin .bxor (.bin .bxor (.bin .bxor (.bin .bxor (.bin .bxor (.index (.index (.glob
         "Hash._T") (.int 0)) (.index (.name "data") (.int 1))) (.index (.index (.glob "Hash._T")
         (.int 1)) (.index (.name "data") (.int 9)))) (.index (.index (.glob "Hash._T") (.int 2))
         (.index (.name "data") (.int 17)))) (.index (.index (.glob "Hash._T") (.int 3)) (.index
         (.name "data") (.int 25)))) (.index (.index (.glob "Hash._T") (.int 4)) (.index (.name
         "data") (.int 33)))) (.index (.index (.glob "Hash._T") (.int 5)) (.index (.name "data")
         (.int 41)))) (.index (.index (.glob "Hash._T") (.int 6)) (.index (.name "data") (.int
         49)))) (.index (.index (.glob "Hash._T") (.int 7)) (.index (.name "data") (.int 57))))
         "to_bytes" [.int 8, .str "little"]),
     .assign (.slice (.name "internal") (some (.int 16)) none) (.meth (.bin .bxor (.bin .bxor
         (.bin .bxor (.bin .bxor (.bin .bxor (.bin .bxor (.bin .bxor (.index (.index (.glob
         "Hash._T") (.int 0)) (.index (.name "data") (.int 2))) (.index (.index (.glob "Hash._T")
         (.int 1)) (.index (.name "data") (.int 10)))) (.index (.index (.glob "Hash._T") (.int
         2)) (.index (.name "data") (.int 18)))) (.index (.index (.glob "Hash._T") (.int 3))
         (.index (.name "data") (.int 26)))) (.index (.index (.glob "Hash._T") (.int 4)) (.index
         (.name "data") (.int 34)))) (.index (.index (.glob "Hash._T") (.int 5)) (.index (.name
         "data") (.int 42)))) (.index (.index (.glob "Hash._T") (.int 6)) (.index (.name "data")
         (.int 50)))) (.index (.index (.glob "Hash._T") (.int 7)) (.index (.name "data") (.int
         58)))) "to_bytes" [.int 8, .str "little"]),
     .assign (.slice (.name "internal") (some (.int 24)) none) (.meth (.bin .bxor (.bin .bxor
         (.bin .bxor (.bin .bxor (.bin .bxor (.bin .bxor (.bin .bxor (.index (.index (.glob
         "Hash._T") (.int 0)) (.index (.name "data") (.int 3))) (.index (.index (.glob "Hash._T")
         (.int 1)) (.index (.name "data") (.int 11)))) (.index (.index (.glob "Hash._T") (.int
         2)) (.index (.name "data") (.int 19)))) (.index (.index (.glob "Hash._T") (.int 3))
         (.index (.name "data") (.int 27)))) (.index (.index (.glob "Hash._T") (.int 4)) (.index
         (.name "data") (.int 35)))) (.index (.index (.glob "Hash._T") (.int 5)) (.index (.name
         "data") (.int 43)))) (.index (.index (.glob "Hash._T") (.int 6)) (.index (.name "data")
         (.int 51)))) (.index (.index (.glob "Hash._T") (.int 7)) (.index (.name "data") (.int
         59)))) "to_bytes" [.int 8, .str "little"]),
     .assign (.slice (.name "internal") (some (.int 32)) none) (.meth (.bin .bxor (.bin .bxor
         (.bin .bxor (.bin .bxor (.bin .bxor (.bin .bxor (.bin .bxor (.index (.index (.glob
         "Hash._T") (.int 0)) (.index (.name "data") (.int 4))) (.index (.index (.glob "Hash._T")
         (.int 1)) (.index (.name "data") (.int 12)))) (.index (.index (.glob "Hash._T") (.int
         2)) (.index (.name "data") (.int 20)))) (.index (.index (.glob "Hash._T") (.int 3))
         (.index (.name "data") (.int 28)))) (.index (.index (.glob "Hash._T") (.int 4)) (.index
         (.name "data") (.int 36)))) (.index (.index (.glob "Hash._T") (.int 5)) (.index (.name
         "data") (.int 44)))) (.index (.index (.glob "Hash._T") (.int 6)) (.index (.name "data")
         (.int 52)))) (.index (.index (.glob "Hash._T") (.int 7)) (.index (.name "data") (.int
         60)))) "to_bytes" [.int 8, .str "little"]),
     .assign (.slice (.name "internal") (some (.int 40)) none) (.meth (.bin .bxor (.bin .bxor
         (.bin .bxor (.bin .bxor (.bin .bxor (.bin .bxor (.bin .bxor (.index (.index (.glob
         "Hash._T") (.int 0)) (.index (.name "data") (.int 5))) (.index (.index (.glob "Hash._T")
         (.int 1)) (.index (.name "data") (.int 13)))) (.index (.index (.glob "Hash._T") (.int
         2)) (.index (.name "data") (.int 21)))) (.index (.index (.glob "Hash._T") (.int 3))
         (.index (.name "data") (.int 29)))) (.index (.index (.glob "Hash._T") (.int 4)) (.index
         (.name "data") (.int 37)))) (.index (.index (.glob "Hash._T") (.int 5)) (.index (.name
         "data") (.int 45)))) (.index (.index (.glob "Hash._T") (.int 6)) (.index (.name "data")
         (.int 53)))) (.index (.index (.glob "Hash._T") (.int 7)) (.index (.name "data") (.int
         61)))) "to_bytes" [.int 8, .str "little"]),
     .assign (.slice (.name "internal") (some (.int 48)) none) (.meth (.bin .bxor (.bin .bxor
         (.bin .bxor (.bin .bxor (.bin .bxor (.bin .bxor (.bin .bxor (.index (.index (.glob
         "Hash._T") (.int 0)) (.index (.name "data") (.int 6))) (.index (.index (.glob "Hash._T")
         (.int 1)) (.index (.name "data") (.int 14)))) (.index (.index (.glob "Hash._T") (.int
         2)) (.index (.name "data") (.int 22)))) (.index (.index (.glob "Hash._T") (.int 3))
         (.index (.name "data") (.int 30)))) (.index (.index (.glob "Hash._T") (.int 4)) (.index
         (.name "data") (.int 38)))) (.index (.index (.glob "Hash._T") (.int 5)) (.index (.name
         "data") (.int 46)))) (.index (.index (.glob "Hash._T") (.int 6)) (.index (.name "data")
         (.int 54)))) (.index (.index (.glob "Hash._T") (.int 7)) (.index (.name "data") (.int
         62)))) "to_bytes" [.int 8, .str "little"]),
     .assign (.slice (.name "internal") (some (.int 56)) none) (.meth (.bin .bxor (.bin .bxor
         (.bin .bxor (.bin .bxor (.bin .bxor (.bin .bxor (.bin .bxor (.index (.index (.glob
         "Hash._T") (.int 0)) (.index (.name "data") (.int 7))) (.index (.index (.glob "Hash._T")
         (.int 1)) (.index (.name "data") (.int 15)))) (.index (.index (.glob "Hash._T") (.int
         2)) (.index (.name "data") (.int 23)))) (.index (.index (.glob "Hash._T") (.int 3))
         (.index (.name "data") (.int 31)))) (.index (.index (.glob "Hash._T") (.int 4)) (.index
         (.name "data") (.int 39)))) (.index (.index (.glob "Hash._T") (.int 5)) (.index (.name
         "data") (.int 47)))) (.index (.index (.glob "Hash._T") (.int 6)) (.index (.name "data")
         (.int 55)))) (.index (.index (.glob "Hash._T") (.int 7)) (.index (.name "data") (.int
         63)))) "to_bytes" [.int 8, .str "little"]),
     .ret (.name "internal")]

/-- `GOST34112012._hash_get_key`, gost_34_11_2012.py 816-820. -/
def GOST34112012.m__hash_get_key : FunDef where
  params := ["self", "k", "i"]
  defaults := []
  static := false
  body :=
    [.assign (.name "key") (.builtin "bytearray" [.glob "Hash._BLOCK_SIZE"]),
     .assign (.name "key") (.call "Utils.add_xor" [.name "k", .index (.glob "Hash._C") (.name
         "i")]),
     .assign (.name "key") (.meth (.name "self") "_hash_lps" [.name "key"]),
     .ret (.name "key")]

/-- `GOST34112012._hash_e`, gost_34_11_2012.py 822-828. -/
def GOST34112012.m__hash_e : FunDef where
  params := ["self", "k", "data"]
  defaults := []
  static := false
  body :=
    [.assign (.name "internal") (.call "Utils.add_xor" [.name "k", .name "data"]),
     .for_ "i" (.builtin "range" [.int 12])
        [.assign (.name "internal") (.meth (.name "self") "_hash_lps" [.name "internal"]),
         .assign (.name "k") (.meth (.name "self") "_hash_get_key" [.name "k", .name "i"]),
         .assign (.name "internal") (.call "Utils.add_xor" [.name "internal", .name "k"])],
     .ret (.name "internal")]

/-- `GOST34112012._hash_g`, gost_34_11_2012.py 830-837. -/
def GOST34112012.m__hash_g : FunDef where
  params := ["self", "hash_h", "hash_n", "data"]
  defaults := []
  static := false
  body :=
    [.assign (.name "k") (.call "Utils.add_xor" [.name "hash_n", .name "hash_h"]),
     .assign (.name "k") (.meth (.name "self") "_hash_lps" [.name "k"]),
     .assign (.name "internal") (.meth (.name "self") "_hash_e" [.name "k", .name "data"]),
     .assign (.name "internal") (.call "Utils.add_xor" [.name "internal", .name "hash_h"]),
     .assign (.name "result") (.call "Utils.add_xor" [.name "internal", .name "data"]),
     .ret (.name "result")]

/-- `GOST34112012.update`, gost_34_11_2012.py 839-864. -/
def GOST34112012.m_update : FunDef where
  params := ["self", "data"]
  defaults := []
  static := false
  body :=
    [.if_ (.not (.builtin "isbytes" [.name "data"]))
        [.raise "GOSTHashError" "GOSTHashError: invalid data value"]
        [],
     .assign (.name "data") (.bin .add (.attr (.name "self") "_buff") (.name "data")),
     .assign (.attr (.name "self") "_num_block") (.bin .floordiv (.builtin "len" [.name "data"])
         (.glob "Hash._BLOCK_SIZE")),
     .for_ "i" (.builtin "range" [.int 0, .bin .mul (.attr (.name "self") "_num_block") (.glob
         "Hash._BLOCK_SIZE"), .glob "Hash._BLOCK_SIZE"])
        [.assign (.name "block") (.slice (.name "data") (some (.name "i")) (some (.bin .add
            (.name "i") (.glob "Hash._BLOCK_SIZE")))),
         .assign (.attr (.name "self") "_hash_h") (.meth (.name "self") "_hash_g" [.attr (.name
             "self") "_hash_h", .attr (.name "self") "_hash_n", .name "block"]),
         .assign (.attr (.name "self") "_hash_n") (.meth (.name "self") "_hash_add_512" [.attr
             (.name "self") "_hash_n", .glob "Hash._V_512"]),
         .assign (.attr (.name "self") "_hash_sigma") (.meth (.name "self") "_hash_add_512"
             [.attr (.name "self") "_hash_sigma", .name "block"])],
     .assign (.attr (.name "self") "_pad_block_size") (.bin .sub (.glob "Hash._BLOCK_SIZE") (.bin
         .mod (.builtin "len" [.name "data"]) (.glob "Hash._BLOCK_SIZE"))),
     .if_ (.cmp .lt (.attr (.name "self") "_pad_block_size") (.glob "Hash._BLOCK_SIZE"))
        [.assign (.attr (.name "self") "_buff") (.slice (.name "data") (some (.neg (.bin .sub
            (.glob "Hash._BLOCK_SIZE") (.attr (.name "self") "_pad_block_size")))) none)]
        []]

/-- `GOST34112012.hash_final`, gost_34_11_2012.py 866-880. -/
def GOST34112012.m_hash_final : FunDef where
  params := ["self"]
  defaults := []
  static := false
  body :=
    [.assign (.attr (.name "self") "_pad_block_size") (.bin .sub (.glob "Hash._BLOCK_SIZE")
        (.builtin "len" [.attr (.name "self") "_buff"])),
     .assign (.name "internal") (.builtin "bytearray" [.glob "Hash._BLOCK_SIZE"]),
     .assign (.index (.name "internal") (.int 1)) (.bin .band (.bin .shr (.bin .mul (.bin .sub
         (.glob "Hash._BLOCK_SIZE") (.attr (.name "self") "_pad_block_size")) (.int 8)) (.int 8))
         (.int 255)),
     .assign (.index (.name "internal") (.int 0)) (.bin .band (.bin .mul (.bin .sub (.glob
         "Hash._BLOCK_SIZE") (.attr (.name "self") "_pad_block_size")) (.int 8)) (.int 255)),
     .if_ (.cmp .le (.attr (.name "self") "_pad_block_size") (.glob "Hash._BLOCK_SIZE"))
        [.assign (.attr (.name "self") "_buff") (.bin .add (.attr (.name "self") "_buff") (.bytes
            [1])),
         .assign (.attr (.name "self") "_buff") (.bin .add (.attr (.name "self") "_buff") (.bin
             .mul (.bytes [0]) (.bin .sub (.attr (.name "self") "_pad_block_size") (.int 1))))]
        [],
     .assign (.attr (.name "self") "_hash_h") (.meth (.name "self") "_hash_g" [.attr (.name
         "self") "_hash_h", .attr (.name "self") "_hash_n", .attr (.name "self") "_buff"]),
     .assign (.attr (.name "self") "_hash_n") (.meth (.name "self") "_hash_add_512" [.attr (.name
         "self") "_hash_n", .name "internal"]),
     .assign (.attr (.name "self") "_hash_sigma") (.meth (.name "self") "_hash_add_512" [.attr
         (.name "self") "_hash_sigma", .attr (.name "self") "_buff"]),
     .assign (.attr (.name "self") "_hash_h") (.meth (.name "self") "_hash_g" [.attr (.name
         "self") "_hash_h", .glob "Hash._V_0", .attr (.name "self") "_hash_n"]),
     .assign (.attr (.name "self") "_hash_h") (.meth (.name "self") "_hash_g" [.attr (.name
         "self") "_hash_h", .glob "Hash._V_0", .attr (.name "self") "_hash_sigma"])]

/-- `GOST34112012.get_hash`, gost_34_11_2012.py 882-884. -/
def GOST34112012.m_get_hash : FunDef where
  params := ["self"]
  defaults := []
  static := false
  body :=
    [.ret (.slice (.attr (.name "self") "_hash_h") (some (.neg (.attr (.name "self")
        "digest_size"))) none)]

/-- `GOST34112012.digest`, gost_34_11_2012.py 886-896. -/
def GOST34112012.m_digest : FunDef where
  params := ["self"]
  defaults := []
  static := false
  body :=
    [.assign (.name "temp") (.meth (.name "self") "copy" []),
     .expr (.meth (.name "temp") "hash_final" []),
     .ret (.meth (.name "temp") "get_hash" [])]

/-- `GOST34112012.hexdigest`, gost_34_11_2012.py 898-907. -/
def GOST34112012.m_hexdigest : FunDef where
  params := ["self"]
  defaults := []
  static := false
  body :=
    [.ret (.meth (.meth (.name "self") "digest" []) "hex" [])]

/-- `GOST34112012.reset`, gost_34_11_2012.py 909-911. -/
def GOST34112012.m_reset : FunDef where
  params := ["self"]
  defaults := []
  static := false
  body :=
    [.expr (.meth (.name "self") "_hash_init" [.attr (.name "self") "_name"])]

/-- `GOST34112012.copy`, gost_34_11_2012.py 913-920. -/
def GOST34112012.m_copy : FunDef where
  params := ["self"]
  defaults := []
  static := false
  body :=
    [.ret (.builtin "deepcopy" [.name "self"])]

/-- `GOST34112012.digest_size`, gost_34_11_2012.py 922-934. -/
def GOST34112012.m_digest_size : FunDef where
  params := ["self"]
  defaults := []
  static := false
  body :=
    [.if_ (.cmp .eq (.attr (.name "self") "_name") (.str "streebog512"))
        [.assign (.name "result") (.int 64)]
        [.assign (.name "result") (.int 32)],
     .ret (.name "result")]

/-- `GOST34112012.block_size`, gost_34_11_2012.py 936-944. -/
def GOST34112012.m_block_size : FunDef where
  params := ["self"]
  defaults := []
  static := false
  body :=
    [.ret (.glob "Hash._BLOCK_SIZE")]

/-- `GOST34112012.name`, gost_34_11_2012.py 946-953. -/
def GOST34112012.m_name : FunDef where
  params := ["self"]
  defaults := []
  static := false
  body :=
    [.ret (.attr (.name "self") "_name")]

end Gost.Src
