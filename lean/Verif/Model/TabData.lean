/-!
# The tables of functions/tables

The entries as numbers: `(m, e)` stands for `m * 10^e`.  The literals of the source are integers, strings of digits and
strings with point and exponent; zeros at the end of a string with a point are dropped.  Every table has one function per entry
and an array of these functions in order of the index (checked on the text); only the numbers are kept here.
-/

namespace EFX.TabData

set_option maxHeartbeats 4000000 in
set_option maxRecDepth 20000 in
/-- Factorials (A000142.cpp 21-6021). -/
def a142 : List (Int × Nat) :=
  [(1, 0),
   (1, 0),
   (2, 0),
   (6, 0),
   (24, 0),
   (120, 0),
   (720, 0),
   (5040, 0),
   (40320, 0),
   (362880, 0),
   (3628800, 0),
   (39916800, 0),
   (479001600, 0),
   (6227020800, 0),
   (87178291200, 0),
   (1307674368000, 0),
   (20922789888000, 0),
   (355687428096000, 0),
   (6402373705728000, 0),
   (121645100408832000, 0),
   (2432902008176640000, 0),
   (51090942171709440000, 0),
   (1124000727777607680000, 0),
   (25852016738884976640000, 0),
   (620448401733239439360000, 0),
   (15511210043330985984000000, 0),
   (403291461126605635584000000, 0),
   (10888869450418352160768000000, 0),
   (304888344611713860501504000000, 0),
   (8841761993739701954543616000000, 0),
   (265252859812191058636308480000000, 0),
   (8222838654177922817725562880000000, 0),
   (263130836933693530167218012160000000, 0),
   (8683317618811886495518194401280000000, 0),
   (295232799039604140847618609643520000000, 0),
   (10333147966386144929666651337523200000000, 0),
   (371993326789901217467999448150835200000000, 0),
   (13763753091226345046315979581580902400000000, 0),
   (523022617466601111760007224100074291200000000, 0),
   (20397882081197443358640281739902897356800000000, 0),
   (815915283247897734345611269596115894272000000000, 0),
   (33452526613163807108170062053440751665152000000000, 0),
   (1405006117752879898543142606244511569936384000000000, 0),
   (60415263063373835637355132068513997507264512000000000, 0),
   (2658271574788448768043625811014615890319638528000000000, 0),
   (119622220865480194561963161495657715064383733760000000000, 0),
   (5502622159812088949850305428800254892961651752960000000000, 0),
   (258623241511168180642964355153611979969197632389120000000000, 0),
   (12413915592536072670862289047373375038521486354677760000000000, 0),
   (608281864034267560872252163321295376887552831379210240000000000, 0),
   (30414093201713378043612608166064768844377641568960512000000000000, 0),
   (1551118753287382280224243016469303211063259720016986112000000000000, 0),
   (80658175170943878571660636856403766975289505440883277824000000000000, 0),
   (4274883284060025564298013753389399649690343788366813724672000000000000, 0),
   (230843697339241380472092742683027581083278564571807941132288000000000000, 0),
   (12696403353658275925965100847566516959580321051449436762275840000000000000, 0),
   (710998587804863451854045647463724949736497978881168458687447040000000000000, 0),
   (40526919504877216755680601905432322134980384796226602145184481280000000000000, 0),
   (2350561331282878571829474910515074683828862318181142924420699914240000000000000, 0),
   (138683118545689835737939019720389406345902876772687432540821294940160000000000000, 0),
   (8320987112741390144276341183223364380754172606361245952449277696409600000000000000, 0),
   (507580213877224798800856812176625227226004528988036003099405939480985600000000000000, 0),
   (31469973260387937525653122354950764088012280797258232192163168247821107200000000000000, 0),
   (1982608315404440064116146708361898137544773690227268628106279599612729753600000000000000, 0),
   (126886932185884164103433389335161480802865516174545192198801894375214704230400000000000000, 0),
   (8247650592082470666723170306785496252186258551345437492922123134388955774976000000000000000, 0),
   (544344939077443064003729240247842752644293064388798874532860126869671081148416000000000000000, 0),
   (36471110918188685288249859096605464427167635314049524593701628500267962436943872000000000000000, 0),
   (2480035542436830599600990418569171581047399201355367672371710738018221445712183296000000000000000, 0),
   (171122452428141311372468338881272839092270544893520369393648040923257279754140647424000000000000000, 0),
   (11978571669969891796072783721689098736458938142546425857555362864628009582789845319680000000000000000, 0),
   (850478588567862317521167644239926010288584608120796235886430763388588680378079017697280000000000000000, 0),
   (61234458376886086861524070385274672740778091784697328983823014963978384987221689274204160000000000000000, 0),
   (4470115461512684340891257138125051110076800700282905015819080092370422104067183317016903680000000000000000, 0),
   (330788544151938641225953028221253782145683251820934971170611926835411235700971565459250872320000000000000000, 0),
   (24809140811395398091946477116594033660926243886570122837795894512655842677572867409443815424000000000000000000, 0),
   (1885494701666050254987932260861146558230394535379329335672487982961844043495537923117729972224000000000000000000, 0),
   (145183092028285869634070784086308284983740379224208358846781574688061991349156420080065207861248000000000000000000, 0),
   (11324281178206297831457521158732046228731749579488251990048962825668835325234200766245086213177344000000000000000000, 0),
   (894618213078297528685144171539831652069808216779571907213868063227837990693501860533361810841010176000000000000000000, 0),
   (71569457046263802294811533723186532165584657342365752577109445058227039255480148842668944867280814080000000000000000000, 0),
   (5797126020747367985879734231578109105412357244731625958745865049716390179693892056256184534249745940480000000000000000000, 0),
   (475364333701284174842138206989404946643813294067993328617160934076743994734899148613007131808479167119360000000000000000000, 0),
   (39455239697206586511897471180120610571436503407643446275224357528369751562996629334879591940103770870906880000000000000000000, 0),
   (3314240134565353266999387579130131288000666286242049487118846032383059131291716864129885722968716753156177920000000000000000000, 0),
   (281710411438055027694947944226061159480056634330574206405101912752560026159795933451040286452340924018275123200000000000000000000, 0),
   (24227095383672732381765523203441259715284870552429381750838764496720162249742450276789464634901319465571660595200000000000000000000, 0),
   (2107757298379527717213600518699389595229783738061356212322972511214654115727593174080683423236414793504734471782400000000000000000000, 0),
   (185482642257398439114796845645546284380220968949399346684421580986889562184028199319100141244804501828416633516851200000000000000000000, 0),
   (16507955160908461081216919262453619309839666236496541854913520707833171034378509739399912570787600662729080382999756800000000000000000000, 0),
   (1485715964481761497309522733620825737885569961284688766942216863704985393094065876545992131370884059645617234469978112000000000000000000000, 0),
   (135200152767840296255166568759495142147586866476906677791741734597153670771559994765685283954750449427751168336768008192000000000000000000000, 0),
   (12438414054641307255475324325873553077577991715875414356840239582938137710983519518443046123837041347353107486982656753664000000000000000000000, 0),
   (1156772507081641574759205162306240436214753229576413535186142281213246807121467315215203289516844845303838996289387078090752000000000000000000000, 0),
   (108736615665674308027365285256786601004186803580182872307497374434045199869417927630229109214583415458560865651202385340530688000000000000000000000, 0),
   (10329978488239059262599702099394727095397746340117372869212250571234293987594703124871765375385424468563282236864226607350415360000000000000000000000, 0),
   (991677934870949689209571401541893801158183648651267795444376054838492222809091499987689476037000748982075094738965754305639874560000000000000000000000, 0),
   (96192759682482119853328425949563698712343813919172976158104477319333745612481875498805879175589072651261284189679678167647067832320000000000000000000000, 0),
   (9426890448883247745626185743057242473809693764078951663494238777294707070023223798882976159207729119823605850588608460429412647567360000000000000000000000, 0),
   (933262154439441526816992388562667004907159682643816214685929638952175999932299156089414639761565182862536979208272237582511852109168640000000000000000000000, 0),
   (93326215443944152681699238856266700490715968264381621468592963895217599993229915608941463976156518286253697920827223758251185210916864000000000000000000000000, 0),
   (9425947759838359420851623124482936749562312794702543768327889353416977599316221476503087861591808346911623490003549599583369706302603264000000000000000000000000, 0),
   (961446671503512660926865558697259548455355905059659464369444714048531715130254590603314961882364451384985595980362059157503710042865532928000000000000000000000000, 0),
   (99029007164861804075467152545817733490901658221144924830052805546998766658416222832141441073883538492653516385977292093222882134415149891584000000000000000000000000, 0),
   (10299016745145627623848583864765044283053772454999072182325491776887871732475287174542709871683888003235965704141638377695179741979175588724736000000000000000000000000, 0),
   (1081396758240290900504101305800329649720646107774902579144176636573226531909905153326984536526808240339776398934872029657993872907813436816097280000000000000000000000000, 0),
   (114628056373470835453434738414834942870388487424139673389282723476762012382449946252660360871841673476016298287096435143747350528228224302506311680000000000000000000000000, 0),
   (12265202031961379393517517010387338887131568154382945052653251412013535324922144249034658613287059061933743916719318560380966506520420000368175349760000000000000000000000000, 0),
   (1324641819451828974499891837121832599810209360673358065686551152497461815091591578895743130235002378688844343005686404521144382704205360039762937774080000000000000000000000000, 0),
   (144385958320249358220488210246279753379312820313396029159834075622223337844983482099636001195615259277084033387619818092804737714758384244334160217374720000000000000000000000000, 0),
   (15882455415227429404253703127090772871724410234473563207581748318444567162948183030959960131517678520479243672638179990208521148623422266876757623911219200000000000000000000000000, 0),
   (1762952551090244663872161047107075788761409536026565516041574063347346955087248316436555574598462315773196047662837978913145847497199871623320096254145331200000000000000000000000000, 0),
   (197450685722107402353682037275992488341277868034975337796656295094902858969771811440894224355027779366597957338237853638272334919686385621811850780464277094400000000000000000000000000, 0),
   (22311927486598136465966070212187151182564399087952213171022161345724023063584214692821047352118139068425569179220877461124773845924561575264739138192463311667200000000000000000000000000, 0),
   (2543559733472187557120132004189335234812341496026552301496526393412538629248600474981599398141467853800514886431180030568224218435400019580180261753940817530060800000000000000000000000000, 0),
   (292509369349301569068815180481773552003419272043053514672100535242441942363589054622883930786268803187059211939585703515345785120071002251720730101703194015956992000000000000000000000000000, 0),
   (33931086844518982011982560935885732032396635556994207701963662088123265314176330336254535971207181169698868584991941607780111073928236261199604691797570505851011072000000000000000000000000000, 0),
   (3969937160808720895401959629498630647790406360168322301129748464310422041758630649341780708631240196854767624444057168110272995649603642560353748940315749184568295424000000000000000000000000000, 0),
   (468452584975429065657431236280838416439267950499862031533310318788629800927518416622330123618486343228862579684398745837012213486653229822121742374957258403779058860032000000000000000000000000000, 0),
   (55745857612076058813234317117419771556272886109483581752463927935846946310374691578057284710599874844234646982443450754604453404911734348832487342619913750049708004343808000000000000000000000000000, 0),
   (6689502913449127057588118054090372586752746333138029810295671352301633557244962989366874165271984981308157637893214090552534408589408121859898481114389650005964960521256960000000000000000000000000000, 0),
   (809429852527344373968162284544935082997082306309701607045776233628497660426640521713391773997910182738287074185078904956856663439318382745047716214841147650721760223072092160000000000000000000000000000, 0),
   (98750442008336013624115798714482080125644041369783596059584700502676714572050143649033796427745042294071023050579626404736512939596842694895821378210620013388054747214795243520000000000000000000000000000, 0),
   (12146304367025329675766243241881295855454217088483382315328918161829235892362167668831156960612640202170735835221294047782591091570411651472186029519906261646730733907419814952960000000000000000000000000000, 0),
   (1506141741511140879795014161993280686076322918971939407100785852066825250652908790935063463115967385069171243567440461925041295354731044782551067660468376444194611004520057054167040000000000000000000000000000, 0),
   (188267717688892609974376770249160085759540364871492425887598231508353156331613598866882932889495923133646405445930057740630161919341380597818883457558547055524326375565007131770880000000000000000000000000000000, 0),
   (23721732428800468856771473051394170805702085973808045661837377170052497697783313457227249544076486314839447086187187275319400401837013955325179315652376928996065123321190898603130880000000000000000000000000000000, 0),
   (3012660018457659544809977077527059692324164918673621799053346900596667207618480809067860692097713761984609779945772783965563851033300772326297773087851869982500270661791244122597621760000000000000000000000000000000, 0),
   (385620482362580421735677065923463640617493109590223590278828403276373402575165543560686168588507361534030051833058916347592172932262498857766114955245039357760034644709279247692495585280000000000000000000000000000000, 0),
   (49745042224772874403902341504126809639656611137138843145968864022652168932196355119328515747917449637889876686464600208839390308261862352651828829226610077151044469167497022952331930501120000000000000000000000000000000, 0),
   (6466855489220473672507304395536485253155359447828049608975952322944781961185526165512707047229268452925683969240398027149120740074042105844737747799459310029635780991774612983803150965145600000000000000000000000000000000, 0),
   (847158069087882051098456875815279568163352087665474498775849754305766436915303927682164623187034167333264599970492141556534816949699515865660644961729169613882287309922474300878212776434073600000000000000000000000000000000, 0),
   (111824865119600430744996307607616902997562475571842633838412167568361169672820118454045730260688510087990927196104962685462595837360336094267205134948250389032461924909766607715924086489297715200000000000000000000000000000000, 0),
   (14872707060906857289084508911813048098675809251055070300508818286592035566485075754388082124671571841702793317081960037166525246368924700537538282948117301741317436012998958826217903503076596121600000000000000000000000000000000, 0),
   (1992942746161518876737324194182948445222558439641379420268181650403332765909000151088003004705990626788174304488982644980314383013435909872030129915047718433336536425741860482713199069412263880294400000000000000000000000000000000, 0),
   (269047270731805048359538766214698040105045389351586221736204522804449923397715020396880405635308734616403531106012657072342441706813847832724067538531441988500432417475151165166281874370655623839744000000000000000000000000000000000, 0),
   (36590428819525486576897272205198933454286172951815726156123815101405189582089242773975735166401987907830880230417721361838572072126683305250473185240276110436058808776620558462614334914409164842205184000000000000000000000000000000000, 0),
   (5012888748274991661034926292112253883237205694398754483388962668892510972746226260034675717797072343372830591567227826571884373881355612819314826377917827129740056802397016509378163883274055583382110208000000000000000000000000000000000, 0),
   (691778647261948849222819828311491035886734385827028118707676848307166514238979223884785249055995983385450621636277440066920043595627074569065446040152660143904127838730788278294186615891819670506731208704000000000000000000000000000000000, 0),
   (96157231969410890041971956135297253988256079629956908500367081914696145479218112119985149618783441690577636407442564169301886059792163365100096999581219760002673769583579570682891939608962934200435638009856000000000000000000000000000000000, 0),
   (13462012475717524605876073858941615558355851148193967190051391468057460367090535696797920946629681836680869097041958983702264048370902871114013579941370766400374327741701139895604871545254810788060989321379840000000000000000000000000000000000, 0),
   (1898143759076170969428526414110767793728175011895349373797246196996101911759765533248506853474785138972002542682916216702019230820297304827075914771733278062452780211579860725280286887880928321116599494314557440000000000000000000000000000000000, 0),
   (269536413788816277658850750803729026709400851689139611079208959973446471469886705721287973193419489734024361060974102771686730776482217285444779897586125484868294790044340222989800738079091821598557128192667156480000000000000000000000000000000000, 0),
   (38543707171800727705215657364933250819444321791546964384326881276202845420193798918144180166658987031965483631719296696351202501036957071818603525354815944336166154976340651887541505545310130488593669331551403376640000000000000000000000000000000000, 0),
   (5550293832739304789551054660550388117999982337982762871343070903773209740507907044212761943998894132603029642967578724274573160149321818341878907651093495984407926316593053871805976798524658790357488383743402086236160000000000000000000000000000000000, 0),
   (804792605747199194484902925779806277109997439007500616344745281047115412373646521410850481879839649227439298230298915019813108221651663659572441609408556917739149315905992811411866635786075524601835815642793302504243200000000000000000000000000000000000, 0),
   (117499720439091082394795827163851716458059626095095089986332811032878850206552392125984170354456588787206137541623641592892713800361142894297576474973649309989915800122274950466132528824767026591868029083847822165619507200000000000000000000000000000000000, 0),
   (17272458904546389112034986593086202319334765035978978227990923221833190980363201642519673042105118551719302218618675314155228928653088005461743741821126448568517622617974417718521481737240752909004600275325629858346067558400000000000000000000000000000000000, 0),
   (2556323917872865588581178015776757943261545225324888777742656636831312265093753843092911610231557545654456728355563946494973881440657024808338073789526714388140608147460213822341179297111631430532680840748193219035217998643200000000000000000000000000000000000, 0),
   (380892263763056972698595524350736933545970238573408427883655838887865527498969322620843829924502074302514052524979028027751108334657896696442372994639480443832950613971571859528835715269633083149369445271480789636247481797836800000000000000000000000000000000000, 0),
   (57133839564458545904789328652610540031895535786011264182548375833179829124845398393126574488675311145377107878746854204162666250198684504466355949195922066574942592095735778929325357290444962472405416790722118445437122269675520000000000000000000000000000000000000, 0),
   (8627209774233240431623188626544191544816225903687700891564804750810154197851655157362112747789971982951943289690774984828562603780001360174419748328584232052816331406456102618328128950857189333333217935399039885261005462721003520000000000000000000000000000000000000, 0),
   (1311335885683452545606724671234717114812066337360530535517850322123143438073451583919041137664075741408695380032997797693941515774560206746511801745944803272028082373781327597985875600530292778666649126180654062559672830333592535040000000000000000000000000000000000000, 0),
   (200634390509568239477828874698911718566246149616161171934231099284840946025238092339613294062603588435530393145048663047173051913507711632216305667129554900620296603188543122491838966881134795135997316305640071571629943041039657861120000000000000000000000000000000000000, 0),
   (30897696138473508879585646703632404659201907040888820477871589289865505687886666220300447285640952619071680544337494109264649994680187591361311072737951454695525676891035640863743200899694758450943586711068571022031011228320107310612480000000000000000000000000000000000000, 0),
   (4789142901463393876335775239063022722176295591337767174070096339929153381622433264146569329274347655956110484372311586936020749175429076661003216274382475477806479918110524333880196139452687559896255940215628508414806740389616633144934400000000000000000000000000000000000000, 0),
   (747106292628289444708380937293831544659502112248691679154935029028947927533099589206864815366798234329153235562080607562019236871366935959116501738803666174537810867225241796085310597754619259343815926673638047312709851500780194770609766400000000000000000000000000000000000000, 0),
   (117295687942641442819215807155131552511541831623044593627324799557544824622696635505477776012587322789677057983246655387237020188804608945581290772992175589402436306154362961985393763847475223716979100487761173428095446685622490578985733324800000000000000000000000000000000000000, 0),
   (18532718694937347965436097530510785296823609396441045793117318330092082290386068409865488609988797000768975161352971551183449189831128213401843942132763743125584936372389347993692214687901085347282697877066265401639080576328353511479745865318400000000000000000000000000000000000000, 0),
   (2946702272495038326504339507351214862194953894034126281105653614484641084171384877168612688988218723122267050655122476638168421183149385930893186799109435156968004883209906330997062135376272570217948962453536198860613811636208208325279592585625600000000000000000000000000000000000000, 0),
   (471472363599206132240694321176194377951192623045460204976904578317542573467421580346978030238114995699562728104819596262106947389303901748942909887857509625114880781313585012959529941660203611234871833992565791817698209861793313332044734813700096000000000000000000000000000000000000000, 0),
   (75907050539472187290751785709367294850142012310319093001281637109124354328254874435863462868336514307629599224875954998199218529677928181579808491945059049643495805791487187086484320607292781408814365272803092482649411787748723446459202305005715456000000000000000000000000000000000000000, 0),
   (12296942187394494341101789284917501765723005994271693066207625211678145401177289658609880984670515317835995074429904709708273401807824365415928975695099566042246320538220924308010459938381430588227927174194100982189204709615293198326390773410925903872000000000000000000000000000000000000000, 0),
   (2004401576545302577599591653441552787812849977066285969791842909503537700391898214353410600501293996807267197132074467682448564494675371562796423038301229264886150247730010662205704969956173185881152129393638460096840367667292791327201696065980922331136000000000000000000000000000000000000000, 0),
   (328721858553429622726333031164414657201307396238870899045862237158580182864271307153959338482212215476391820329660212699921564577126760936298613378281401599441328640627721748601735615072812402484508949220556707455881820297436017777661078154820871262306304000000000000000000000000000000000000000, 0),
   (54239106661315887749844950142128418438215720379413698342567269131165730172604765680403290849565015553604650354393935095487058155225915554489271207416431263907819225703574088519286376487014046409943976621391856730220500349076942933314077895545443758280540160000000000000000000000000000000000000000, 0),
   (9003691705778437366474261723593317460743809582982673924866166675773511208652391102946946281027792581898371958829393225850851653767501982045219020431127589808697991466793298694201538496844331704050700119151048217216603057946772526930136930660543663874569666560000000000000000000000000000000000000000, 0),
   (1503616514864999040201201707840084015944216200358106545452649834854176371844949314192140028931641361177028117124508668717092226179172831001551576411998307498052564574954480881931656928973003394576466919898225052275172710677111011997332867420310791867053134315520000000000000000000000000000000000000000, 0),
   (252607574497319838753801886917134114678628321660161899636045172255501630469951484784279524860515748677740723676917456344471493998101035608260664837215715659672830848592352788164518364067464570288846442542901808782229015393754650015551921726612213033664926565007360000000000000000000000000000000000000000, 0),
   (42690680090047052749392518888995665380688186360567361038491634111179775549421800928543239701427161526538182301399050122215682485679075017796052357489455946484708413412107621199803603527401512378815048789750405684196703601544535852628274771797464002689372589486243840000000000000000000000000000000000000000, 0),
   (7257415615307998967396728211129263114716991681296451376543577798900561843401706157852350749242617459511490991237838520776666022565442753025328900773207510902400430280058295603966612599658257104398558294257568966313439612262571094946806711205568880457193340212661452800000000000000000000000000000000000000000, 0),
   (1241018070217667823424840524103103992616605577501693185388951803611996075221691752992751978120487585576464959501670387052809889858690710767331242032218484364310473577889968548278290754541561964852153468318044293239598173696899657235903947616152278558180061176365108428800000000000000000000000000000000000000000, 0),
   (213455108077438865629072570145733886730056159330291227886899710221263324938130981514753340236723864719151973034287306573083301055694802251980973629541579310661401455397074590303866009781148657954570396550703618437210885875866741044575478989978191912006970522334798649753600000000000000000000000000000000000000000, 0),
   (36927733697396923753829554635211962404299715564140382424433649868278555214296659802052327860953228596413291334931704037143411082635200789592708437910693220744422451783693904122568819692138717826140678603271725989637483256524946200711557865266227200777205900363920166407372800000000000000000000000000000000000000000, 0),
   (6425425663347064733166342506526881458348150508160426541851455077080468607287618805557105047805861775775912692278116502462953528378524937389131268196460620409529506610362739317326974626432136901748478076969280322196922086635340638923811068556323532935233826663322108954882867200000000000000000000000000000000000000000, 0),
   (1124449491085736328304109938642204255210926338928074644824004638489082006275333290972493383366025810760784721148670387931016867466241864043097971934380608571667663656813479380532220559625623957805983663469624056384461365161184611811666936997356618263665919666081369067104501760000000000000000000000000000000000000000000, 0),
   (197903110431089593781523349201027948917123035651341137489024816374078433104458659211158835472420542693898110922165988275858968674058568071585243060450987108613508803599172370973670818494109816573853124770653833923665200268368491678853380911534764814405201861230320955810392309760000000000000000000000000000000000000000000, 0),
   (35028850546302858099329632808581946958330777310287381335557392498211882659489182680375113878618436056819965633223379924827037455308366548670588021699824718224591058237053509662339734873457437533572003084405728604488740447501223027157048421341653372149720729437766809178439438827520000000000000000000000000000000000000000000, 0),
   (6235135397241908741680674639927586558582878361231153877729215864681715113389074517106770270394081618113953882713761626619212667044889245663364667862568799843977208366195524719896472807475423880975816549024219691598995799655217698833954618998814300242650289839922492033762220111298560000000000000000000000000000000000000000000, 0),
   (1116089236106301664760840760547037993986335226660376544113529639778027005296644338562111878400540609642397745005763331164839067401035174973742275547399815172071920297548998924861468632538100874694671162275335324796220248138283968091277876800787759743434401881346126074043437399922442240000000000000000000000000000000000000000000, 0),
   (200896062499134299656951336898466838917540340798867777940435335160044860953395980941180138112097309735631594101037399609671032132186331495273609598531966730972945653558819806475064353856858157445040809209560358463319644664891114256430017824141796753818192338642302693327818731986039603200000000000000000000000000000000000000000000, 0),
   (36362187312343308237908191978622497844074801684595067807218795663968119832564672550353604998289613062149318532287769329350456815925726000644523337334285978306103163294146384971986648048091326497552386466930424881860855684345291680413833226169665212441092813294256787492335190489473168179200000000000000000000000000000000000000000000, 0),
   (6617918090846482099299290940109294607621613906596302340913820810842197809526770404164356109688709577311175972876374017941783140498482132117303247394840048051710775719534642064901569944752621422554534336981337328498675734550843085835317647162879068664278892019554735323605004669084116608614400000000000000000000000000000000000000000000, 0),
   (1211079010624906224171770242040000913194755344907123328387229208384122199143398983962077168073033852647945203036376445283346314711222230177466494273255728793463071956674839497876987299889729720327479783667584731115257659422804284707863129430806869565563037239578516564219715854442393339376435200000000000000000000000000000000000000000000, 0),
   (222838537954982745247605724535360168027834983462910692423250174342678484642385413049022198925438228887221917358693265932135721906864890352653834946279054097997205240028170467609365663179710268540256280194835590525207409333795988386246815815268464000063598852082447047816427717217400374445264076800000000000000000000000000000000000000000000, 0),
   (41225129521671807870807059039041631085149471940638478098301282253395519658841301414069106801206072344136054711358254197445108552770004715240959465061625008129482969405211536507732647688246399679947411836044584247163370726752257851455660925824665840011765787635252703846039127685219069272373854208000000000000000000000000000000000000000000000, 0),
   (7667874091030956263970112981261743381837801780958756926284038499131566656544482063016853865024329456009306176312635280724790190815220877034818460501462251512083832309369345790438272470013830340470218601504292669972386955175919960370752932203387846242188436500157002915363277749450746884661536882688000000000000000000000000000000000000000000000, 0),
   (1433892455022788821362411127495946012403668933039287545215115199337602964773818145784151672759549608273740254970462797495535765682446304005511052113773441032759676641852067662811956951892586273667930878481302729284836360617897032589330798322033527247289237625529359545172932939147289667431707397062656000000000000000000000000000000000000000000000, 0),
   (269571781544284298416133291969237850331889759411386058500441657475469357377477811407420514478795326355463167934447005929160723948299905153036077797389406914158819208668188720608647906955806219449571005154484913105549235796164642126794190084542303122490376673599519594492511392559690457477160990647779328000000000000000000000000000000000000000000000, 0),
   (50949066711869732400649192182185953712727164528751965056583473262863708544343306356002477236492316681182538739610484120611376826228682073923818703706597906776016830438287668195034454414647375475968919974197648576948805565475117361964101925978495290150681191310309203359084653193781496463183427232430292992000000000000000000000000000000000000000000000, 0),
   (9680322675255249156123346514615331205418161260462873360750859919944104623425228207640470674933540169424682360525991982916161596983449594045525553704253602287443197783274656957056546338783001340434094795097553229620273057440272298773179365935914105128629426348958748638226084106818484328004851174161755668480000000000000000000000000000000000000000000000, 0),
   (1848941630973752588819559184291528260234868800748408811903414244709323983074218587659329898912306172360114330860464468736986865023838872462695380757512438036901650776605459478797800350707553256022912105863632666857472153971092009065677258893759594079568220432651120989901182064402330506648926574264895332679680000000000000000000000000000000000000000000000, 0),
   (354996793146960497053355363383973425965094809743694491885455534984190204750249968830591340591162785093141951525209177997501478084577063512837513105442388103085116949108248219929177667335850225156399124325817472036634653562449665740610033707601842063277098323069015230061026956365247457276593902258859903874498560000000000000000000000000000000000000000000000, 0),
   (68514381077363375931297585133106871211263298280533036933892918251948709516798243984304128734094417522976396644365371353517785270323373257977640029350380903895427571177891906446331289795819093455185030994882772103070488137552785487937736505567155518212479976352319939401778202578492759254382623135959961447778222080000000000000000000000000000000000000000000000, 0),
   (13291789929008494930671731515822733014985079866423409165175226140878049646258859332955000974414316999457420949006882042582450342442734412047662165693973895355712948808511029850588270220388904130305896013007257787995674698685240384659920882080028170533221115412350068243944971300227595295350228888376232520868975083520000000000000000000000000000000000000000000000, 0),
   (2591899036156656511480987645585432937922090573952564787209169097471219681020477569926225190010791814894197085056341998303577816776333210349294122310324909594364025017659650820864712692975836305409649722536415268659156566243621875008684572005605493253978117505408263307569269403544381082593294633233365341569450141286400000000000000000000000000000000000000000000000, 0),
   (508012211086704676250273578534744855832729752494702698292997143104359057480013603705540137242115195719262628671043031667501252088161309228461647972823682280495348903461291560889483687823263915860291345617137392657194686983749887501702176113098676677779711031060019608283576803094698692188285748113739606947612227692134400000000000000000000000000000000000000000000000, 0),
   (100078405584080821221303894971344736599047761241456431563720437191558734323562679929991407036696693556694737848195477238497746661367777918006944650646265409257583733981874437495228286501182991424477395086576066353467353335798727837835328694280439305522603073118823862831864630209655642361092292378406702568679608855350476800000000000000000000000000000000000000000000000, 0),
   (19815524305648002601818171204326257846611456725808373449616646563928629396065410626138298593265945324225558093942704493222553838950820027765375040827960551033001579328411138624055200727234232302046524227142061137986535960488148111891395081467526982493475408477527124840709196781511817187496273890924527108598562553359394406400000000000000000000000000000000000000000000000, 0),
   (3943289336823952517761816069660925311475679888435866316473712666221797249817016714601521420059923119520886060694598194151288213951213185525309633124764149655567314286353816586186984944719612228107258321201270166459320656137141474266387621212037869516201606287027897843301130159520851620311758504293980894611113948118519486873600000000000000000000000000000000000000000000000, 0),
   (788657867364790503552363213932185062295135977687173263294742533244359449963403342920304284011984623904177212138919638830257642790242637105061926624952829931113462857270763317237396988943922445621451664240254033291864131227428294853277524242407573903240321257405579568660226031904170324062351700858796178922222789623703897374720000000000000000000000000000000000000000000000000, 0),
   (158520231340322891214025006000369197521322331515121825922243249182116249442644071926981161086408909404739619639922847404881786200838770058117447251615518816153806034311423426764716794777728411569911784512291060691664690376713087265508782372723922354551304572738521493300705432412738235136532691872618031963366780714364483372318720000000000000000000000000000000000000000000000000, 0),
   (32021086730745224025233051212074577899307110966054608836293136334787482387414102529250194539454599699757403167264415175786120812569431551739724344826334800863068818930907532206472792545101139137122180471482794259716267456096043627632774039290232315619363523693181341646742497347373123497579603758268842456600089704301625641208381440000000000000000000000000000000000000000000000000, 0),
   (6500280606341280477122309396051139313559343526109085593767506675961858924645062813437789491509283739050752842954676280684582524951594605003164041999745964575202970242974229037913976886655531244835802635711007234722402293587496856409453129975917160070730795309715812354288726961516744070008659562928575018689818209973230005165301432320000000000000000000000000000000000000000000000000, 0),
   (1326057243693621217332951116794432419966106079326253461128571361896219220627592813941309056267893882766353579962753961259654835090125299420645464567948176773341405929566742723734451284877728373946503737685045475883370067891849358707528438515087100654429082243182025720274900300149415790281766550837429303812722914834538921053721492193280000000000000000000000000000000000000000000000000, 0),
   (271841734957192349553254978942858646093051746261881959531357129188724940228656526857968356534918245967102483892364562058229241193475686381232320236429376238534988215561182258365562513399934316659033266225434322556090863917829118535043329895592855634157961859852315272656354561530630237007762142921673007281608197541080478816012905899622400000000000000000000000000000000000000000000000000, 0),
   (55999397401181624007970525662228881095168659729947683663459568612877337687103244532741481446193158669223111681827099783995223685855991394533857968704451505138207572405603545223305877760386469231760852842439470446554717967072798418218925958492128260636540143129576946167209039675309828823599001441864639500011288693462578636098658615322214400000000000000000000000000000000000000000000000000, 0),
   (11591875262044596169649898812081378386699912564099170518336130702865608901230371618277486659361983844529184118138209655287011302972190218668508599521821461563608967487959933861224316696399999130974496538384970382436826619184069272571317673407870549951763809627822427856612271212789134566484993298465980376502336759546753777672422333371698380800000000000000000000000000000000000000000000000000, 0),
   (2411110054505276003287178952912926704433581813332627467813915186196046651455917296601717225147292639662070296572747608299698351018215565483049788700538864005230665237495666243134657872851199819242695279984073839546859936790286408694834076068837074389966872402587064994175352412260139989828878606080923918312486045985724785755863845341313263206400000000000000000000000000000000000000000000000000, 0),
   (503922001391602684687020401158801681226618598986519140773108273914973750154286714989758900055784161689372691983704250134636955362807053185957405838412622577093209034636594244815143495425900762221723313516671432465293726789169859417220321898386948547503076332140696583782648654162369257874235628670913098927309583611016480222975543676334472010137600000000000000000000000000000000000000000000000000, 0),
   (105823620292236563784274284243348353057589905787169019562352737522144487532400210147849369011714673954768265316577892528273760626189481169051055226066650741189573897273684791411180134039439160066561895838501000817711682625725670477616267598661259194975646029749546282594356217374097544153589482020891750774735012558313460846824864172030239122128896000000000000000000000000000000000000000000000000000, 0),
   (22328783881661914958481873975346502495151470121092663127656427617172486869336444341196216861471796204456103981797935323465763492125980526669772652700063306391000092324747490987759008282321662774044560021923711172537165034028116470777032463317525690139861312277154265627409161865934581816407380706408159413469087649804140238680046340298380454769197056000000000000000000000000000000000000000000000000000, 0),
   (4733702182912325971198157282773458528972111665671644583063162654840567216299326200333597974632020795344694044141162288574741860330707871653991802372413420954892019572846468089404909755852192508097446724647826768577878987213960691804730882223315446309650598202756704313010742315578131345078364709758529795655446581758477730600169824143256656411069775872000000000000000000000000000000000000000000000000000, 0),
   (1008278564960325431865207501230746666671059784788060296192453645481040817071756480671056368596620429408419831402067567466420016250440776662300253905324058663392000169016297703043245777996517004224756152349987101707088224276573627354407677913566190063955577417187178018671288113218141976501691683178566846474610121914555756617836172542513667815557862260736000000000000000000000000000000000000000000000000000, 0),
   (215771612901509642419154405263379786667606793944644903385185080132942734853355886863606062879676771893401843920042459437813883477594326205732254335739348553965888036169487708451254596491254638904097816602897239765316879995186756253843243073503164673686493567278056095995655656228682382971362020200213305145566566089714931916216940924097924912529382523797504000000000000000000000000000000000000000000000000000, 0),
   (46390896773824573120118197131626654133535460698098654227814792228582687993471515675675303519130505957081396442809128779129984947682780134232434682183959939102665927776439857317019738245619747364381030569622906549543129198965152594576297260803180404842596116964782060639065966089166712338842834343045860606296811709288710361986642298681053856193817242616463360000000000000000000000000000000000000000000000000000, 0),
   (10020433703146107793945530580431357292843659510789309313207995121373860606589847385945865560132189286729581631646771816292076748699480508994205891351735346846175840399711009180476263461053865430706302603038547814701315906976472960428480208333486967446000761264392925098038248675260009865190052218097905890960111329206361438189114736515107632937864524405156085760000000000000000000000000000000000000000000000000000, 0),
   (2174434113582705391286180135953604532547074113841280120966134941338127751629996882750252826548685075220319214067349484135380654467787270451742678423326570265620157366737288992163349171048688798463267664859364875790185551813894632412980205208366671935782165194373264746274299962531422140746241331327245578338344158437780432087037897823778356347516601795918870609920000000000000000000000000000000000000000000000000000, 0),
   (474026636761029775300387269637885788095262156817399066370617417211711849855339320439555116187613346398029588666682187541512982673977624958479903896285192317905194305948729000291610119288614158064992350939341542922260450295429029866029684735423934482000512012373371714687797391831850026682680610229339536077759026539436134194974261725583681683758619191510313792962560000000000000000000000000000000000000000000000000000, 0),
   (103811833450665520790784812050696987592862412343010395535165214369364895118319311176262570445087322861168479918003399071591343205601099865907098953286457117621237553002771651063862616124206500616233324855715797899975038614698957540660500957057841651558112130709768405516627628811175155843507053640225358401029226812136513388699363317902826288743137602940758720658800640000000000000000000000000000000000000000000000000000, 0),
   (228386033591464145739726586511533372704297307154622870177363471612602769260302484587777654979192110294570655819607477957500955052322419704995617697230205658766722616606097632340497755473254301355713314682574755379945084952337706589453102105527251633427846687561490492136580783384585342855715518008495788482264298986700329455138599299386217835234902726469669185449361408000000000000000000000000000000000000000000000000000, 2),
   (504733134237135762084795756190488753676497048811716543091973272263852120065268490938988617504014563751001149361332526286077110665632547548040315110878754505874456982699475767472500039595892005996126425448490209389678637744666331562691355653215226109875541179510893987621843531279933607711131294798775692545804100760607728095856304451643541415869135025497968899843088711680000000000000000000000000000000000000000000000000, 4),
   (112050755800644139182824657874288503316182344836201072566418066442575170654489604988455473085891233152722255158215820835509118567770425555664949954615083500304129450159283620378895008790288025331140066449564826484508657579315925606917480955013780196392370141851418465252049263944145260911871147445328203745168510368854915637280099588264866194322947975660549095765165693992960000000000000000000000000000000000000000000000, 7),
   (249873185435436430377698987059663362395086628984728391823112288166942630559511819124255704981537449930570629002821280463185334406128048989132838398791636205678208673855202473444935869602342296488442348182529563060454306401874514103425982529680729837954985416328663177512069858595443931833472658803081894351725778122546461871134622081830651613340173985723024483556319497604300800000000000000000000000000000000000000000000, 9),
   (559715935375377604046045731013645931764994048925791597683771525493951492453306474838332779158643887844478208966319668237535149069726829735657558013293265100719187429435653540516656347909246744134110859928866221255417646340198911591674200866484834837019167332576205517627036483253794407306978755718903443347865742994504074591341553463300659613881989728019574843166155674633633792000000000000000000000000000000000000000000, 11),
   (125936085459459960910360289478070334647123661008303109478848593236139085801993956838624875310694874765007597017421925353445408540688536690522950552990984647661817171623022046616247678279580517430174943483994899782468970426544755108126695194959087838329312649829646241466083208732103741644070220036753274753269792173763416783051849529242648413123447688804404339712385026792567603200000000000000000000000000000000000000000, 14),
   (284615553138379511657414254220438956302499473878765027422197820713674333912506342455292218202170416968917169259373551298786623301956092920581868249759625303715706807868029825352719752911851969392195372273828473508379873163991146544366331140607538514624246588615000505713348051734554456115598697283062400942389730312705321929697179936088385413658991776697953807749990160551202783232000000000000000000000000000000000000000, 16),
   (646077305624121491462330357080396430806673805704796612248389053020040737981389397373513335318926846519441974218777961448245634895440330929720840926954349439434654453860427703550673839109903970520283495061590634864022312082259902655711571689179112428197039756156051147969300077437438615382409042832551650139224687809841080780412598454920634889005911333104355143592477664451230317936640000000000000000000000000000000000000, 18),
   (147305625682299700053411321414330386223921627700693627592632704088569288259756782601161040452715321006432770121881375210200004756160395451976351731345591672191101215480177516409553635317058105278624636874042664748997087154755257805502238345132837633628925064403579661737000417655736004307189261765821776231743228820643766417934072447721904754693347783947792972739084907494880512489553920000000000000000000000000000000000, 21),
   (337329882812466313122311926038816584452780527434588407187128892362823670114843032156658782636718085104731043579108349231358010891607305585025845464781404929317621783449606512577877824876063061088050418441557702275203329584389540374600125810354198181010238397484197425377730956431635449863463409443731867570691993999274225097069025905283161888247766425240445907572504438163276373601078476800000000000000000000000000000000, 23),
   (775858730468672520181317429889278144241395213099553336530396452434494441264138973960315200064451595740881400231949203232123425050696802845559444568997231337430530101934094978929118997214945040502515962415582715232967658044095942861580289363814655816323548314213654078368781199792761534685965841720583295412591586198330717723258759582151272342969862778053025587416760207775535659282480496640000000000000000000000000000000, 25),
   (179223366738263352161884326304423251319762294225996820738521580512368215932016102984832811214888318616143603453580265946620511186710961457324231695438360438946452453546775940132626488356652304356081187317999607218815529008186162801025046843041185493570739660583354092103188457152127914512458109437454741240308656411814395794072773463476943911226038301730248910693271607996148737294252994723840000000000000000000000000000, 28),
   (415798210832770977015571637026261943061848522604312624113370066788694260962277358924812122018540899189453160012306216996159585953169430580992217533416996218355769692228520181107693452987433346106108354577759088747652027298991897698378108675855550345084116012553381493679397220592936761668902813894894999677516082875409398242248834435266509874044408860014177472808390130551065070522666947759308800000000000000000000000000, 30),
   (968809831240356376446281914271190327334107057668048414184152255617657628042106246294812244303200295111425862828673485601051835270884773253711866852861601188768943382892452021980925745460719696427232466166178676782029223606651121637220993214743432304045990309249378880272995523981542654688543556375105349248612473099703897904439784234170968006523472643833033511643549004183981614317813988279189504000000000000000000000000, 32),
   (226701500510243392088429967939458536596181051494323328919091627814531884961852861632986065166948869056073651901909595630646129453387036941368576843569614678171932751596833773143536624437808408963972397082885810366994838323956362463109712412249963159146761732364354657983880952611680981197119192191774651724175318705330712109638909510796006513526492598656929841724590466979051697750368473257330343936000000000000000000000, 35),
   (532748526199071971407810424657727561001025471011659822959865325364149929660354224837517253142329842281773081969487549732018404215459536812216155582388594493704041966252559366887311067428849761065335133144781654362437870061297451788307824168787413423994890071056233446262120238637450305813230101650670431551811998957527173457651437350370615306787257606843785128052787597400771489713365912154726308249600000000000000000000, 37),
   (125728652182980985252243260219223704396242011158751718218528216785939383399843597061654071741589842778498447344799061736756343394848450687683012717443708300514153904035604010585405411913208543611419091422168470429535337334466198622040646503833829568062794056769271093317860376318438272171922303989558221846227631753976412936005739214687465212401792795215133290220457872986582071572354355268515408746905600000000000000000, 40),
   (297976905673664935047816526719560179419093566446241572177911873782676338657629325036120150027567927385041320207173776316112533845790828129808740140341588672218544752564381505087410826234304248359063246670539274917998749482684890734236332214086176076308821914543172491163329091874698705047455860455252985775559487256924098658333601938809292553392248924659865897822485158978199509626479821986381518730166272000000000000000, 42),
   (709185035503322545413803333592553227017442688142054941783430259602769686005157793585965957065611667176398342093073587632347830552982170948944801534012981039880136511103227982108037766437644111094570527075883474304837023768790039947482470669525099061614996156612750528968723238661782918012944947883502106145831579671479354806833972614366116277073552440690480836817514678368114832911021976327588014577795727360000000000000, 44),
   (169495223485294088353898996728620221257168802465951131086239832045061954955232712667045863738681188455159203760244587444131131502162738856797807566629102468531352626153671487723821026178596942551602355971136150358856048680740819547448310490016498675725984081430447376423524854040166117405093842544157003368853747541483565798833319454833501790220579033325024919999386008129979445065734252342293535484093178839040000000000, 47),
   (406788536364705812049357592148688531017205125918282714606975596908148691892558510400910072972834852292382089024587009865914715605190573256314738159909845924475246302768811570537170462828632662123845654330726760861254516833777966913875945176039596821742361795433073703416459649696398681772225222105976808085248994099560557917199966691600404296529389679980059807998526419511950668157762205621504485161823629213696000000000, 49),
   (980360372638941007038951797078339359751464353463061342202811188548638347461066010066193275864531994024640834549254693776854464608509281547718518965382728677985343589672835884994580815417004715718468026937051493675623385569404900262441027874255428340399091926993707625233667755768320823071062785275404107485450075779940944580451919726756974354635829128751944137276448671023801110260206915547825809239994946405007360000000, 51),
   (237247210178623723703426334892958125059854373538060844813080307628770480085577974436018772759216742553963081960919635893998780435259246134547881589622620340072453148700826284168688557330915141203869262518766461469500859307795985863510728745569813658376580246332477245306547596895933639183197194036647794011478918338745708588469364573875187793821870649157970481220900578387759868682970073562573845836078777030011781120000, 54),
   (576510720734055648599325993789888243895446127697487852895785147537912266607954477879525617804896684406130289165034715222417036457679968106951352262782967426376061151343007870529913194314123793125402307920602501370887088117944245648331070851734647189855089998587919706094910660457118743215169181509054139447893771563152071869980555914516706338987145677453868269366788405482256480899617278757054445381671428182928628121600, 56),
   (140668615859109578258235542484732731510488855158187036106571575999250593052340892602604250744394790995095790556268470514269756895673912218096129952119044052035758920927693920409298819412646205522598163132627010334496449500778395938192781287823253914324641959655452408287158201151536973344501280288209210025286080261409105536275255643142076346712863545298743857725496370937670581339506616016721284673127828476634585261670, 59),
   (344638108854818466732677079087595192200697695137558238461100361198163952978235186876380414323767237937984686862857752759960904394401084934335518382691657927487609356272850105002782107560983203530365499674936175319516301276907070048572314155166972090095372801155858400303537592821265584694028136706112564561950896640452308563874376325698087049446515685981922451427466108797292924281791209240967147449163179767754733891092, 61),
   (847809747782853428162385614555484172813716330038393266614306888547483324326458559715895819236467405327442329682630071789503824810226668938465375221421478501619519016431211258306843984600018680684699129200342991286010101141191392319487892821710751341634617090843411664746702478340313338347309216297036908822399205735512679067130965761217294141638428587515529230511566627641340593733206374732779182724941422228676645372088, 63),
   (209409007702364796756109246795204590684987933519483136853733801471228381108635264249826267351407449115878255431609627732007444728125987227800947679691105189900021197058509180801790464196204614129120684912484718847644494981874273902913509526962555581383750421438322681192435512150057394571785376425368116479132603816671631729581348543020671652984691861116335719936356957027411126652101974558996458133060531290483131406906, 66),
   (519334339101864695955150932052107384898770075128318179397259827648646385149415455339569143031490473807378073470391876775378462925752448324946350245633940870952052568705102768388440351206587443040219298582962102742158347555048199279225503626867137841831701045167040249357240070132142338538027733534912928868248857465345646689361744386691265699402035815568512585442165253427979594097212896906311216169990117600398165889126, 68),
   (129314250436364309292832582080974738839793748706951226669917697084512949902204448379552716614841127978037140294127577317069237268512359632911641211162851276867061089607570589328721647450440273317014605347157563582797428541207001620527150403089917322616093560246593022089952777462903442295968905650193319288193965508871066025651074352286125159151106918076559633775099148103566918930206011329671492826327539282499143306392, 71),
   (323285626090910773232081455202436847099484371767378066674794242711282374755511120948881791537102819945092850735318943292673093171280899082279103027907128192167652724018926473321804118626100683292536513367893908956993571353017504051317876007724793306540233900616482555224881943657258605739922264125483298220484913772177665064127685880715312897877767295191399084437747870258917297325515028324178732065818848206247858265981, 73),
   (811446921488186040812524452558116486219705773136118947353733549205318760636332913581693296758128078062183055345650547664609463859915056696520548600046891762340808337287505448037728337751512715064266648553413711482053864096073935168807868779389231199415987090547371213614453678579719100407204882954963078533417133568165939310960491560595435373673195910930411701938747154349882416287042721093688617485205308997682124247612, 75),
   (204484624215022882284756162044645354527365854830301974733140854399740327680355894222586710783048275671670129947103938011481584892698594287523178247211816724109883700996451372905507541113381204196195195435460255293477573752210631662539582932406086262252828746817937545830842327002089213302615630504650695790421117659177816706362043873270049714165645369554463748888564282896170368904334765715609531606271737867415895310398, 78),
   (517346099264007892180433089972952746954235612720663996074846361631343029031300412383144378281112137449325428766172963169048409778527443547433640965445896311998005763521021973450934079016854446616373844451714445892498261593092898106225144818987398243499656729449381990952031087315285709655617545176766260349765427677719876267095970999373225776839082784972793284688067635727311033327966957260492114963867496804562215135308, 80),
   (131405909213058004613830004853129997726375845631048655003010975854361129373950304745318672083402482912128658906607932644938296083745970661048144805223257663247493463934339581256537256070281029440558956490735469256694558444645596118981186784022799153848912809280143025701815896178082570252526856474898630128840418630140848571842376633840799347317127027383089494310769179474737002465303607144164997200822344188358802644368, 83),
   (335085068493297911765266512375481494202258406359174070257677988428620879903573277100562613812676331425928080211850228244592655013552225185672769253319307041281108333032565932204170002979216625073425339051375446604571124033846270103402026299258137842314727663664364715539630535254110554143943484010991506828543067506859163858198060416294038335658673919826878210492461407660579356286524198217620742862096977680314946743139, 85),
   (857817775342842654119082271681232625157781520279485619859655650377269452553147589377440291360451408450375885342336584306157196834693696475322289288497426025679637332563368786442675207626794560187968867971521143307702077526646451464709187326100832876325702818980773671781454170250523018608495319068138257481070252817559459476987034665712738139286205234756808218860701203611083152093501947437109101726968262861606263662435, 87),
   (220459168263110562108604143822076784665549850711827804303931502146958249306158930470002154879636011971746602532980502166682399586516279994157828347143838488599666794468785778115767528360086201968307999068680933830079433924348138026430261142807914049215705624478058833647833721754384415782383297000511532172635054974112781085585667909088173701796554745332499712247200209328048370088030000491337039143830843555432809761246, 90),
   (568784654118825250240198691060958104437118614836515735104143275539152283209890040612605559589460910887106234535089695590040590933212002384927197135631103300587140329729467307538680223169022401078234637597196809281604939524818196108190073748444418246976520511153391790811411002126311792718548906261319753005398441833210975200811023205447488150635111242957849257597776540066364794827117401267649560991083576373016649184014, 92),
   (147315225416775739812211460984788149049213721242657575391973108364640441351361520518664839933670375919760514744588231157820513051701908617696144058128455754852069345399932032652518177800776801879262771137673973603935679336927912792021229100847104325966918812388728473820155449550714754314104166721681816028398196434801642577010055010210899431014493811926082957717824123877188481860223406928321236296690646280611312138660, 95),
   (383019586083616923511749798560449187527955675230909696019130081748065147513539953348528583827542977391377338335929401010333333934424962406009974551133984962615380298039823284896547262282019684886083204957952331370232766276012573259255195662202471247513988912210694031932404168831858361216670833476372721673835310730484270700226143026548338520637683911007815690066342722080690052836580858013635214371395680329589411560515, 97),
   (999681119678240170365666974242772379447964312352674306609929513362450035010339278239659603789887170991494853056775736636970001568849151879686033578459700752426142577883938773579988354556071377552677164940255584876307519980392816206656060678348449956011511060869911423343574880651150322775510875373332803568710161006563946527590233299291163538864355007730398951073154504630601037903476039415587909509342725660228364172945, 99),
   (261916453355698924635804747251606363415366649836400668331801532500961909172708890898790816192950438799771651500875242998886140411038477792477740797556441597135649355405591958677956948893690700918801417214346963237592570234862917846143887897727293888475015897947916792916016618730601384567183849347813194535002062183719753990228641124414284847182461012025364525181166480213217471930710722326884032291447794122979831413311, 102),
   (688840272325488171792166485271724735782414289069733757712638030477529821124224383063819846587459654043399443447301889087070549281031196594216458297573441400466757804716706851323026775590406543416447727273732513314868459717689473935358425171022782926689291811603021165369123707261481641411693523784748701627055423543182952994301326157209569148089872461626708701226467842960761951177769199719705004926507698543436956617009, 104),
   (181853831893928877353131952111735330246557372314409712036136440046067872776795237128848439499089348667457453070087698718986625010192235900873144990559388529723224060445210608749279068755867327461942200000265383515125273365470021118934624245150014692645973038263197587657448658717031153332687090279173657229542631815400299590495550105503326255095726329869451097123787510541641155110931068726002121300598032415467356546890, 107),
   (481912654518911524985799673096098625153377036633185736895761566122079862858507378391448364672586773968762250635732401605314556277009425137313834224982379603766543760179808113185589532203048417774146830000703266315081974418495555965176754249647538935511828551397473607292238945600132556331620789239810191658287974310810793914813207779583814576003674774154045407378036902935349061043967332123905621446584785900988494849260, 109),
   (128188766102030465646222713043562234290798291744427406014272576588473243520362962652125265002908081875690758669104818827013671969684507086525479903845312974601900640207828958107366815566010879127923056780187068839811805195319817886737016630406245356846146394671727979539735559529635259984211129937789510981104601166675671181340313269369294677216977489924976078362557816180802850237695310344958895304791553049662939629903, 112),
   (342264005492421343275414643826311165556431438957621174058107779491223560199369110281174457557764578608094325646509866268126504159057633921023031343266985642187074709354903318146669397561249047271554561603099473802297519871503913757587834403184675102779210873773513705371093943944126144157843716933897994319549285115024042054178636429216016788169329898099686129228029369202743610134646478621040250463793446642600048811841, 114),
   (917267534719689199978111245454513923691236256406424746475728849036479141334309215553547546254809070669692792732646441598579031146274458908341723999955521521061360221071140892633073985464147446687766225096306589790157353255630488870335396200534929275448285141713016730394531769770258066343021161382846624776392084108264432705198745630298924992293804126907158826331118709463352875160852562704387871242966437002168130815734, 116),
   (246744966839596394794111925027264245472942552973328256801971060390812889018929178983904289942543640010147361245081892790017759378347829446343923755988035289165505899468136900118296902089855663159009114550906472653552328025764601506120221577943895975095588703120801500476129046068199419846272692411985742064849470625123132397698462574550410822927033310138025724283070932845641923418269339367480337364357971553583227189433, 119),
   (666211410466910265944102197573613462776944893027986293365321863055194800351108783256541582844867828027397875361721110533047950321539139505128594141167695280746865928563969630319401635642610290529324609287447476164591285669564424066524598260448519132758089498426164051285548424384138433584936269512361503575093570687832457473785848951286109221902989937372669455564291518683233193229327216292196910883766523194674713411468, 121),
   (180543292236532682070851695542449248412552066010584285502002224887957790895150480262522768950959181395424824223026420954455994537137106805889849012256445421082400666640835769816557843259147388733446969116898266040604238416451958922028166128581548684977442254073490457898383623008101515501517729037849967468850357656402595975395965065798535599135710273027993422457923001563156195365147675615185362849500727785756847334508, 124),
   (491077754883368895232716611875461955682141619548789256565446051695245191234809306314061931546608973395555521886631864996120305141012930512020389313337531545344129813263073293901037333664880897354975755997963283630443528492749328267916611869741812423138642931079894045483603454582036122164128222982951911515272972825415061053077024978972016829649131942636142109085550564251784851393201677673304186950641979577258624749861, 126),
   (134064227083159708398531635042001113901224662136819467042366772112801937207102940623738907312224249736986657475050499143940843303496530029781566282541146111878947439020819009234983192090512484977908381387443976431111083278520566617141235040439514791516849520184811074417023743100895861350807004874345871843669521581338311667490027819259360594494213020339666795780355304040737264430344058004812043037525260424591604556712, 129),
   (367335982207857601011976680015083052089355574254885339696084955589077307947462057309044606035494444279343441481638367654397910651580492281601491614162740346548315982917044085303853946328004208839468965001596495421244368183146352530966984010804270528756167685306382343902645056096454660101211193355707688851654489132866973968922676224770648028914143675730687020438173533071620104539142718933184997922819213563380996485391, 131),
   (101017395107160840278293587004147839324572782920093468416423362786996259685552065759987266659760972176819446407450551104959425429184635377440410193894753595300786895302187123458559835240201157430853965375439036240842201250365246946015920602971174395407946113459255144573227390426525031527833078172819614434204984511538417841453735961811928207951389510825938930620497721594695528748264247706625874428775283729929774033483, 134),
   (278808010495763919168090300131448036535820880859457972829328481292109676732123701497564855980940283208021672084563521049688014184549593641735532135149519923030171831034036460745625145262955194509156944436211740024724475451008081571003940864200441331325931273147544199022107597577209087016819295756982135838405757251846033242412311254600921853945835049879591448512573711601359659345209323670287413423419783094606176332412, 136),
   (772298189073266056095610131364111061204223839980698584737239893179143804547982653148254651067204584486220031674240953307635799291202374387607424014364170186793575971964280996265381652378385888790364736088306519868486796999292385951680916193835222487772829626618697431291238045288869171036589449246840516272383947587613512081482102175244553535429963088166468312379829181135766256386229826566696135182872799172059108440781, 138),
   (214698896562367963594579616519222875014774227514634206556952690303801977664339177575214792996682874487169168805438985019522752202954260079754863875993239311928614120206070116961776099361191277083721396632549212523439329565803283294567294701886191851600846636199997885898964176590305629548171866890621663523722737429356556358652024404717985882849529738510278190841592512355743019275371891785541525580838638169832432146537, 141),
   (599009921409006618428877130088631821291220094765829436293898005947607517683506305434849272460745219819201980967174768204468478646242385622516070214021137680280833395374935626323355317217723663063582696604812302940395729488591160391842752218262475265966362114997994101658110052686952706439399508624834441231186437427904792240639148089163180613150187970443676152448043109472523023778287578081660856370539800493832485688838, 143),
   (167722777994521853160085596424816909961541626534432242162291441665330104951381765521757796289008661549376554670808935097251174020947867974304499659925918550478633350704981975370539488820962625657803155049347444823310804256805524909715970621113493074470581392199438348464270814752346757803031862414953643544732202479813341827378961464965690571682052631724229322685452070652306446657920521862865039783751144138273095992875, 146),
   (471301006164606407379840525953735516991931970561754600476038951079577594913382761116139407572114338953748118624973107623275798998863509007795644044391831126844959715480999350791215963586904978098426865688666319953503359961623524996301877445328915539262333712080421759184600989454094389426519533386019738360697488968275490534934881716553590506426567895145084396746120318532981115108756666434650761792340715028547399739978, 148),
   (132906883738419006881115028318953415791724815698414797334242984204440881765573938634751312935336243584956969452242416349763775317679509540198371620518496377770278639765641816923122901731507203823756376124203902226887947509177834048957129439582754182071978106806678936090057479026054617818278508414857566217716691889053688330851636644068112522812292146430913799882405929826300674460669379934571514825440081638050366726674, 151),
   (376126480979725789473555530142638166690581228426513876455907645298567695396574246336346215607001569345428223549846038269831484149033011998761391686067344749089888550536766341892437811900165386821230544431497043302092891450973270358548676314019194335263698042262901389134862665643734568425728178814046912396138238046021937976310131702712758439558786774399486053667208781408430908723694345214837386955995431035682537836487, 153),
   (106819920598242124210489770560509239340125068873129940913477771264793225492627085959522325232388445694101615488156274868632141498325375407648235238843125908741528348352441641097452338579646969857229474618545160297794381172076408781827824073181451191214890244002663994514300997042820617432906802783189323120503259605070230385272077403570423396834695443929454039241487293919994378077529194041013817895502702414133840745562, 156),
   (304436773704990053999895846097451332119356446288420331603411648104660692653987194984638626912307070228189604141245383375601603270227319911797470430702908839913355792804458677127739164951993864093104002662853706848713986340417765028209298608567135894962437195407592384365757841572038759683784387932089570893434289874450156598025420600175706680978882015198944011838238787671983977520958203016889381002182701880281446124853, 158),
   (870689172796271554439702119838710809861359436384882148385757313579329580990403377656066472969198220852622267843961796454220585352850134947740765431810319282152197567420751816585334011762702451306277447615761601587322000933594807980678594020502008659592570378865714219286067426896030852695623349485776172755222069040927447870352702916502521107599602563468979873857362932741874175709940460628303629666242527377604935917078, 160),
   (249887792592529936124194508393710002430210158242461176586712348997267589744245769387291077742159889384702590871217035582361307996267988730001599678929561633977680701849755771359990861375895603524901627465723579655561414267941709890454756483884076485303067698734459980935101351519160854723643901302417761580748733814746177538791225737036223557881085935715597223797063161696917888428752912200323141714211605357372616608201, 163),
   (719676842666486216037680184173884806999005255738288188569731565112130658463427815835398303897420481427943461709105062477200567029251807542404607075317137505855720421327296621516773680762579338151716687101283909408016873091672124484509698673586140277672834972355244745093091892375183261604094435750963153352556353386468991311718730122664323846697527494860920004535541905687123518674808387136930648136929423429233135831620, 165),
   (207986607530614516434889573226252709222712518908365286496652422317405760295930638776430109826354519132675660433931363055910963871453772379754931444766652739192303201763588723618347593740385428725846122572271049818916876323493243976023302916666394540247449307010665731331903556896427962603583291932028351318888786128689538489086713005449989591695585446014805881310771610743578696897019623882572957311572603371048376255338, 168),
   (603161161838782097661179762356132856745866304834259330840292024720476704858198852451647318496428105484759415258400952862141795227215939901289301189823292943657679285114407298493208021847117743304953755459586044474858941338130407530467578458332544166717602990330930620862520314999641091550391546602882218824777479773199661618351467715804969815917197793442937055801237671156378221001356909259461576203560549776040291140481, 170),
   (175519898095085590419403310845634661313047094706769465274524979193658721113735866063429369682460578696064989840194677282883262411119838511275186646238578246604384671968292523861523534357511263301741542838739538942183951929395948591366065331374770352514822470186300810670993411664895557641163940061438725678010246614001101530940277105299246216431904557891894683238160162306506062311394860594503318675236119984827724721880, 173),
   (512518102437649924024657667669253211034097516543766838601612939245483465652108728905213759472784889792509770333368457666019126240469928452923545007016648480084803242147414169675648720323932888841085305089119453711177139633836169886788910767614329429343281612943998367159300762061495028312198704979401078979789920112883216470345609147473798951981161309044332475055427673934997701949272992935949690531689470355696956187889, 175),
   (150167804014231427739224696627091190832990572347323683710272591198926655436067857569227631525525972709205362707676958096143603988457689036706598687055878004664847349949192351714965075054912336430437994391111999937374901912713997776829150854910998522797581512592591521577675123284018043295474220558964516141078446593074782425811263480209823092930480263549989415191240308462954326671136986930233259325785014814219208163052, 178),
   (441493343801840397553320608083648101048992282701131630108201418124844366982039501253529236685046359765063766360570256802662195726065605767917400139944281333714651208850625514041997320661442269105487703509869279815882211623379153463877703513438335657024889647022219073438364862455013047288694208443355677454770632983639860331885114631816879893215611974836968880662246506881085720413142741574885782417807943553804471999372, 180),
   (130240536421542917278229579384676189809452723396833830881919418346829088259701652869791124822088676130693811076368225756785347739189353701535633041283562993445822106610934526642389209595125469386118872535411437545685252428896850271843922536464309018822342445871554626664317634424228848950164791490789924849157336730173758797906108816385979568498605532576905819795362719529920287521877108764591305813253343348372319239815, 183),
   (385511987807767035143559554978641521835980061254628139410481478306614101248716892494581729473382481346853680786049948240084629308000486956545473802199346460599633435568366198861472060401571389382911862704817855135228347189534676804658010707934354695714133639779801694926380197895717392892487782812738177553505716721314326041802082096502499522755872376427641226594273649808564051064756241943190265207229896311182064949851, 185),
   (114497060378906809437637187828656531985286078192624557404912999057064388070868917070890773653594596960015543193456834627305134904476144626094005719253205898798091130363804761061857201939266702646724823223330902975162819115291799010983429180256503344627097691014601103393134918775028065689068871495383238733391197866230354834415218382661242358258494095799009444298499273993143523166232603857127508766547279204421073290106, 188),
   (341201239929142292124158819729396465316152513014021181066640737190051876451189372871254505487711898940846318716501367189369302015338910985760137043374553578418311568484138187964334461779014773887239973205526090865985200963569561052730618957164379966988751119223511288111542057949583635753425237056242051425505769641366457406557350780330502227610312405481048144009527836499567699035373159494239976124310892029174798404515, 190),
   (102019170738813545345123487099089543129529601391192333138925580419825511058905622488505097140825857783313049296233908789621421302586334384742280975968991519947075158976757318201336004071925417392284751988452301168929575088107298754766455068192149610129636584647829875145351075326925507090274145879816373376226225122768570764560647883318820166055483409238833395058848823113370742011576574688777752861168956716723264722950, 193),
   (306057512216440636035370461297268629388588804173576999416776741259476533176716867465515291422477573349939147888701726368864263907759003154226842927906974559841225476930271954604008012215776252176854255965356903506788725264321896264299365204576448830388909753943489625436053225980776521270822437639449120128678675368305712293681943649956460498166450227716500185176546469340112226034729724066333258583506870150169794168850, 195),
   (921233111771486314466465088504778574459652300562466768244497991191024364861917771071201027181657495783316835144992196370281434362354599494222797212999993425122088685560118583358064116769486519052331310455724279555434063045608907755541089265775110979470618359369903772562520210202137329025175537294741851587322812858600194003982650386368946099481015185426665557381404872713737800364536469439663108336355679152011080448240, 197),
   (278212399754988866968872456728443129486814994769864964009838393339689358188299166863502710208860563726561684213787643303824993177431089047255284758325998014386870783039155812174135363264384928753804055757628732425741087039773890142173408958264083515800126744529710939313881103481045473365603012263012039179371489483297258589202760416683421722043266585998852998329184271559548815710090013770778258717579415103907346295368, 200),
   (842983571257616266915683543887182682345049434152690840949810331819258755310546475596413211932847508091481903167776559210589729327616199813183512817727773983592218472608642110887630150691086334124026288945615059249995493730514887130785429143540173052874384035925024146121059743547567784297777127156926478713495613134390693525284364062550767817791097755576524584937428342825432911601572741725458123914265627764839259274966, 202),
   (256267005662315345142367797341703535432895027982418015648742340873054661614406128581309616427585642459810498563004074000019277715595324743207787896589243291012034415673027201709839565810090245573703991839466978011998630094076525687758770459636212608073812746921207340420802162038460606426524246655705649528902666392854770831686446675015433416608493717695263473820978216218931605126878113484539269669936750840511134819590, 205),
   (781614367270061802684221781892195783070329835346374947728664139662816717923938692172994330104136209502422020617162425700058797032565740466783753084597192037586704967802732965215010675720775248999797175110374282936595821786933403347664249901890448454625128878109682388283446594217304849600898952299902231063153132498207051036643662358797071920655905838970553595153983559467741395636978246127844772493307090063558961199749, 207),
   (239173996384638911621371865259011909619520929615990734004971226736821915684725239804936265011865680107741138308851702264217991891965116582835828443886740763501531720147636287355793266770557226193937935583774530578598321466801621424385260469978477227115289436701562810814734657830495283977875079403770082705324858544451357617212960681791904007720707186724989400117118969197128867064915343315120500382951969559449042127123, 210),
   (734264168900841458677611626345166562531929253921091553395261666082043281152106486201154333586427637930765294608174725951149235108332907909305993322732294143949702380853243402182285328985610684415389462242187808876296846903080977772862749642833925087243938570673797829201235399539620521812076493769574153905347315731465667884843789293101145303702571063245717458359555235435185621889290103977419936175662546547508559330268, 212),
   (226153364021459169272704380914311301259834210207696198445740593153269330594848797749955534744619712482675710739317815592953964413366535636066245943401546596336508333302798967872143881327568090799939954370593845133899428846148941154041726889992848926871133079767529731393980503058203120718119560081028839402846973245291425708531887102275152753540391887479680977174743012514037171541901352025045340342104064336632636273722, 215),
   (698813894826308833052656537025221920892887709541781253197338432843602231538082785047362602360874911571467946184492050182227750037302595115444699965110778982679810749905648810724924593302185400571814459005134981463749235134600228165988936090077903184031801216481666870007399754449847643018989440650379113754797147327950505439363531146030222008439810932312214219469955908668374860064475177757390101657101558800194846085802, 217),
   (216632307396155738246323526477818795476795189957952188491174914181516691776805663364682406731871222587155063317192535556490602511563804485787856989184341484630741332470751131324726623923677474177262482291591844253762262891726070731456570187924149987049858377109316729702293923879452769335886726601617525263987115671664656686202694655269368822616341389016786408035686331687196206619987305104790931513701483228060402286599, 220),
   (673726476002044345946066167346016453932833040769231306207553983104516911425865613064162284936119502246052246916468785580685773810963431950800235236363302017201605543984036018419899800402636944691286319926850635629200637593268079974829933284444106459725059552809975029374134103265098112634607719731030503570999929738877082294090380377887737038336821719842205728990984491547180202588160518875899797007611612839267851111322, 222),
   (210202660512637835935172644211957133627043908720000167536756842728609276364870071276018632900069284700768301037938261101173961429020590768649673393745350229366900929723019237747008737725622726743681331817177398316310598929099640952146939184746561215434218580476712209164729840218710611141997608556081517114151978078529649675756198677900973955961088376590768187445187161362720223207506081889280736666374823205851569546733, 225),
   (657934327404556426477090376383425828252647434293600524390048917740547035022043323093938320977216861113404782248746757246674499272834449105873477722422946217918399910033050214148137349081199134707722568587765256730052174648081876180219919648256736604309104156892109214685604399884564212874452514780535148567295691385797803485116901861830048482158206618729104426703435815065314298639494036313448705765753196634315412681273, 227),
   (206591378805030717913806378184395710071331294368190564658475360170531768996921603451496632786846094389609101626106481775455792771670017019244272004840805112426377571750377767242515127611496528298224886536558290613236382839497709120589054769552615293753058705264122293411279781563753162842578089641088036650130847095140510294326707184614635223397676878280938789984878845930508689772801127402422893610446503743175039581920, 230),
   (650762843235846761428490091280846486724693577259800278674197384537175072340303050872214393278565197327268670122235417592685747230760553610619456815248536104143089351013689966813922651976214064139408392590158615431694605944417783729855522524090738175322134921581985224245531311925822462954120982369427315447912168349692607427129127631536100953702682166584957188452368364681102372784323551317632114872906486791001374683047, 232),
   (205641058462527576611402868844747489805003170414096888061046373513747322859535764075619748276026602355416899758626391959288696124920334940955748353618537408909216234920326029513199558024483644268053052058490122476415495478436019658634345117612673263401794635219907330861587894568559898293502230428739031681540245198502863946972804331565407901370047564640846471550948403239228349799846242216371748299838449825956434399843, 235),
   (651882155326212417858147094237849542681860050212687135153517004038579013464728372119714602035004329466671572234845662510945166715997461762829722280970763586242215464697433513556842598937613152329728175025413688250237120666642182317870874022832174244983688993647106238831233625782334877590402070459102730430482577279254078711903789731062343047343050779911483314816506438268353868865512587825898442110487885948281897047502, 237),
   (207298525393735548878890775967636154572831495967634508978818407284268126281783622334069243447131376770401559970680920678480563015687192840579851685348702820425024517773783857311075946462160982440853559658081552863575404371992213977082937939260631409904813099979779783948332292998782491073747858405994668276893459574802797030385405134477825089055090148011851694111649047369336530299233002928635704591135147731553643261106, 240),
   (661282296006016400923661575336759333087332472136754083642430719236815322838889755245680886596349091897580976306472136964352996020042145161449726876262361997155828211698370504822332269214293533986322855309280153634805539946655162586894572026241414197596353788935497510795180014666116146525255668315122991803290136043620922526929442378984262034085737572157806904216160461108183531654553279342347897645721121263656122002927, 242),
   (211610334721925248295571704107762986587946391083761306765577830155780903308444721678617883710831709407225912418071083828592958726413486451663912600403955839089865027743478561543146326148573930875623313698969649163137772782929652027806263048397252543230833212459359203454457604693157166888081813860839357377052843533958695208617421561274963850907436023090498209349171347554618730129457049389551327246630758804369959040937, 245),
   (679269174457380047028785170185919186947307915378873794717504834800056699620107556588363406711769787197195178862008179089783397511787291509841159447296698243478466739056566182553499706936922318110750836973692573813672250633204183009258104385355180663770974611994543043088808911065034505710742622493294337180339627744007411619661923211692633961412869634120499252010840025650326123715557128540459760461684735762027568521406, 247),
   (218724674175276375143268824799865978197033148751997361899036556805618257277674633221453016961189871477496847593566633666910253998795507866168853342029536834400066289976214310782226905633688986431661769505529008768002464703891746928981109612084368173734253825062242859874596469362941110838859124442840776572069360133570386541531139274165028135574944022186800759147490488259405011836409395390028042868662484915372877063893, 250),
   (706480697586142691712758304103567109576417070468951478933888078482146971006889065305293244784643284872314817727220226744120120416109490407725396294755403975112214116623172223826592905196815426174267515502858698320647960993570342580608984047032509201161639854951044437394946596042299788009514971950375708327784033231432348529145579855553040877907069191663366452046394277077878188231602347109790578465779826276654392916374, 252),
   (228899746017910232114933690529555743502759130831940279174579737428215618606232057158915011310224424298630000943619353465094919014819474892103028399500750887936357373785907800519816101283768198080462675022926218255889939361916790996117310831238532981176371313004138397715962697117705131315082850911921729498202026766984080923443167873199185244441890418098930730463031745773232532987039160463572147422912663713636023304905, 255),
   (743924174558208254373534494221056166383967175203805907317384146641700760470254185766473786758229378970547503066762898761558486798163293399334842298377440385793161464804200351689402329172246643761503693824510209331642302926229570737381260201525232188823206767263449792576878765632541676774019265463745620869156586992698263001190295587897352044436143858821524874004853173763005732207877271506609479124466157069317075740942, 257),
   (242519280905975890925772245116064310241173299116440725785467231805194447913302864559870454483182777544398485999764704996268066696201233648183158589271045565768570637526169314650745159310152405866250204186790328242115390753950840060386290825697225693556365406127884632380062477596208586628330280541181072403345047359619633738388036361654536766486182897975817108925582134646739868699767990511154690194575967204597366691547, 260),
   (793038048562541163327275241529530294488636688110761173318477848002985844676500367110776386160007682570183049219230585337796578096578034029558928586916319000063225984710573658907936670944198367182638167690804373351717327765419246997463171000029928017929314878038182747882804301739602078274640017369662106758938304865956202324528878902610335226409818076380921946186653580294839370648241328971475836936263412759033389081359, 262),
   (260116479928513501571346279221685936592272833700329664848460734144979357053892120412334654660482519883020040143907631990797277615677595161695328576508552632020738122985068160121803228069697064435905319002583834459363283507057513015167920088009816389880815279996523941305559810970589481674081925697249171016931763996033634362445472280056189954262420329052942398349222374336707313572623155902644074515094399384962951618686, 265),
   (855783218964809420169729258639346731388577622874084597351435815336982084707305076156581013832987490415135932073456109249723043355579288081977631016713138159348228424620874246800732620349303341994128499518500815371305202738219217819902457089552295922707882271188563766895291778093239394707729535543949772645705503546950657052445603801384864949523362882584180490568941611567767061653930182919699005154660573976528110825476, 267),
   (282408462258387108656010655350984421358230615548447917125973819061204087953410675131671734564885871836994857584240516052408604307341165067052618235515335592584915380124888501444241764715270102858062404841105269072530716903612341880567810839552257654493601149492226043075446286770769000253550746729503424973082816170493716827307049254457005433342709751252779561887750731817363130345796960363500671701037989412254276572407, 270),
   (934772010075261329651395269211758434695743337465362605686973341092585531125789334685833441409772235780452978603836108133472480257299256371944166359555760811456069908213380939780440241207544040460186560024058440630076672950956851624679453878917972836373819804819268202579727209211245390839252971674656336660904121524334202698386333032252687984364369276646700349848454922315471961444587938803187223330435744954561655454667, 272),
   (310344307344986761444263229378303800318986788038500385088075149242738396333762059115696702548044382279110388896473587900312863445423353115485463231372512589403415209526842472007106160080904621432781937927987402289185455419717674739393578687800766981676108175199997043256469433458133469758631986595985903771420168346078955295864262566707892410808970599846704516149687034208736691199603195682658158145704667324914469610949, 275),
   (103344654345880591560939655382975165506222600416820628234329024697831885979142765685527001948498779298943759502525704770804183527325976587456659256047046692271337264772438543178366351306941238937116385330019804962298756654765985688218061703037655404898144022341599015404404321341558445429624451536463305955882916059244292113522799434713728172799387209748952603877845782391509318169467864162325166662519654219196518380446, 278),
   (345171145515241175813538448979137052790783485392180898302658942490758499170336837389660186507985922858472156738435853934485972981268761802105241915197135952186266464339944734215743613365183738049968727002266148574077847226918392198648326088145769052359801034620940711450710433280805207734945668131787441892648939637875935659166150111943852097149953280561501696952004913187641122686022666302166056652815645092116371390690, 280),
   (115632333747605793897535380408010912684912467606380600931390745734404097222062840525536162480175284157588172507376011068052800948725035203705256041591040543982399265553881485962274110477336552246739523545759159772316078821017661386547189239528832632540533346598015138335987995149069744591206798824148793034037394778688438445820660287501190452545234348988103068478921645917859776099817593211225628978693241105858984415881, 283),
   (388524641391955467495718878170916666621305891157438819129472905667597766666131144165801505933388954769496259624783397188657411187716118284449660299745896227780861532261041792833241011203850815549044799113750776834982024838619342258798555844816877645336192044569330864808919663700874341826454844049139944594365646456393153177957418566003999920551987412600026310089176730284008847695387113189718113368409290115686187637361, 285),
   (130932804149088992546057261943598916651380085320056882046632369209980447366486195583875107499552077757320239493552004852577547570260331861859535521014367028762150336371971084184802220775697724840028097301334011793388942370614718341215113319703287766478296719019864501440605926667194653195515282444560161328301222855804492620971650056743347973226019758046208866500052558105710981673345457144935004205153930768986245233791, 288),
   (442552878023920794805673545369364338281664688381792261317617407929733912098723341073497863348486022819742409488205776401712110787479921693085230061028560557216068136937262264544631506221858309959294968878508959861654625212677747993307083020597112650696642910287142014869248032135117927800841654662613345289658133252619185058884177191792516149503946782196185968770177646397303118055907645149880314213420285999173508890212, 290),
   (150025425650109149439123331880214510677484329361427576586672301288179796201467212623915775675136761735892676816501758200180405556955693453955892990688682028896247098421731907680630080609209967076200994449814537393100917947097756569731101143982421188586161946587341143040675082893804977524485320930625924053194107172637903734961736068017662974681837959164507043413090222128685757020952691705809426518349476953719819513782, 293),
   (510086447210371108093019328392729336303446719828853760394685824379811307084988522921313637295464989902035101176105977880613378893649357743450036168341518898247240134633888486114142274071313888059083381129369427136543121020132372337085743889540232041192950618396959886338295281838936923583250091164128141780859964386968872698869902631260054113918249061159323947604506755237531573871239151799752050162388221642647386346859, 295),
   (173939478498736547859719590981920703679475331461639132294587866113515655715981086316167950317753561556593969501052138457289162202734430990516462333404457944302308885910155973764922515458318035828147432965114974653561204267865138966946238666333219126046796160873363321241358691107077490941888281086967696347273247855956385590314636797259678452846122929855329466133136803535998266690092550763715449105374383580142758744279, 298),
   (594873016465678993680241001158168806583805633598805832447490502108223542548655315201294390086717180523551375693598313523928934733351753987566301180243246169513896389812733430276035002867447682532264220740693213315179318596098775266956136238859609411080042870186902558645446723586205019021257921317429521507674507667370838718876057846628100308733740420105226774175327868093114072080116523611906835940380391844088234905434, 300),
   (204041444647727894832322663397251900658245332324390400529489242223120675094188773114043975799743992919578121862904221538707624613539651617735241304823433436143266461705767566584680005983534555108566627714057772167106506278461879916565954729928846028000454704474107577615388226190068321524291467011878325877132356129908197680574487841393438405895672964096092783542137458755938126723479967598884044727550474402522264572564, 303),
   (701902569588183958223189962086546538264363943195902977821442993247535122324009379512311276751119335643348739208390522093154228670576401565009230088592611020332836628267840429051299220583358869573469199336358736254846381597908866912986884270955230336321564183390930066996935498093835026043562646520861441017335305086884200021176238174393428116281114996490559175384952858120427155928771088540161113862773631944676590129619, 305),
   (242156386507923465587000536919858555701205560402586527348397832670399617201783235931747390479136170796955315026894730122138208891348858539928184380564450802014828636752404948022698231101258810002846873771043764007922001651278559084980475073479554466030939643269870873113942746842373083985029113049697197150980680254975049007305802170165732700116984673789242915507808736051547368795426025546355584282656903020913423594719, 308),
   (837861097317415190931021857742710602726171238992949384625456501039582675518169996323845971057811150957465389993055766222598202764067050548151517956752999774971307083163321120158535879610355482609850183247811423467410125713423814434032443754239258452467051165713753220974241904074610870588200731151952302142393153682213669565278075508773435142404766971310780487657018226738353896032174048390390321617992884452360445637726, 310),
   (290737800769143071253064584636720579145981419930553436465033405860735188404804988724374551957060469382240490327590350879241576359131266540208576730993290921915043557857672428695011950224793352465618013586990563943191313622558063608609257982721022683006066754502672367678061940713889972094105653709727448843410424327728143339151492201544381994414454139044840829216985324678208801923164394791465441601443530904969074636291, 313),
   (101176754667661788796066475453578761542801534135832595889831625239535845564872136076082344081057043345019690634001442105976068572977680755992584702385665240826435158134470005185864158678228086658035068728272716252230577140650206135796021777986915893686111230566929983951965555368433710288748767490985152197506827666049393882024719286137444934056230040387604608567510892988016663069261209387429973677302348754929237973429, 316),
   (353106873790139642898271999332989877784377354134055759655512372085980101021403754905527380842889081274118720312665032949856479319692105838414120611325971690484258701889300318098665913787016022436542389861671779720284714220869219413928116005174336468964528194678585643992359788235833648907733198543538181169298828554512384648266270308619682819856242840952740083900613016528178154111721620762130608133785197154703040527268, 318),
   (123587405826548875014395199766546457224532073946919515879429330230093035357491314216934583295011178445941552109432761532449767761892237043444942213964090091669490545661255111334533069825455607852789836451585122902099649977304226794874840601811017764137584868137504975397325925882541777117706619490238363409254589994079334626893194608016888986949684994333459029365214555784862353939102567266745712846824819004146064184544, 321),
   (433791794451186551300527151180578064858107579553687500736796949107626554104794512901440387365489236345254847904108992978898684844241752022491747171013956221759911815271005440784211075087349183563292325945063781386369771420337836050010690512356672352122922887162642463644613999847721637683150234410736655566483610879218464540395113074139280344193394330110441193071903090804866862326250011106277452092355114704552685287749, 323),
   (152694711646817666057785557215563478830053868002898000259352526085884547044887668541307016352652211193529706462246365528572337065173096711917095004196912590059488958975393915156042298430746912614278898732662451048002159539958918289603763060349548667947268856281250147202904127946398016464468882512579302759402231029484899518219079802097026681156074804198875299961309887963313135538840003909409663136509000376002545221288, 326),
   (539012332113266361183983016970939080270090154050229940915514417083172451068453469950813767724862305513159863811729670315860349840061031393067345364815101442909996025183140520500829313460536601528404512526298452199447623176054981562301283603033906797853859062672813019626251571650784998119575155269404938740689875534081695299313351701402504184480944058822029808863423904510495368452105213800216110871876771327288984631145, 328),
   (190810365568096291859129988007712434415611914533781399084092103647443047678232528362588073774601256151658591789352303291814563843381605113145840259144545910790138592914831744257293576965029956941055197434309652078604458604323463473054654395474003006440266108186175808947693056364377889334329604965369348314204215939064920135956926502296486481306254196822998552337652062196715360432045245685276503248644377049860300559425, 331),
   (677376797766741836099911457427379142175422296594923966748526967948422819257725475687187661899834459338388000852200676685941701644004698151667732919963137983304992004847652692113392198225856347140745950891799264879045828045348295329344023103932710672862944684060924121764310350093541507136870097627061186515424966583680466482647089083152527008637202398721644860798664820798339529533760622182731586532687538527004066985960, 333),
   (241146140004960093651568478844146974614450337587792932162475600589638523655750269344638807636341067524466128303383440900195245785265672541993712919506877122056577153725764358392367622568404859582105558517480538296940314784143993137246472225000044999539208307525688987348094484633300776540725754755233782399491288103790246067822363713602299615074844053944905570444324676204208872514018781497052444805636763715613447847002, 336),
   (860891719817707534336099469473604699373587705188420767820037894105009529451028461560360543261737611062344078043078884013697027453398450974917555122639551325741980438800978759460752412569205348708116843907405521720076923779394055499969905843250160648354973657866709684832697310140883772250390944476184603166183898530531178462125838457560209625817193272583312886486239094049025674875047049944477227956123246464740008813797, 338),
   (308199235694739297292323610071550482375744398457454634879573566089593411543468189238609074487702064760319179939422240476903535828316645449020484733904959374615628997090750395886949363699775514837505830118851176775787538713023071868989226291883557512111080569516282067170105637030436390465639958122474087933493835673930161889441050167806555046042555191584826013362073595669551191605266843880122847608292122234376923155339, 341),
   (110643525614411407727944176015686623172892239046226213921766910226164034744105079936660657741085041248954585598252584331208369362365675716198354019471880415487010809955579392123414821568219409826664593012667572462507726397975282800967132238786197146847877924456345262114067923693926664177164744965968197568124287006940928118309337010242553261529277313778952538796984420845368877786290796952964102291376871882141315412767, 344),
   (398316692211881067820599033656471843422412060566414370118360876814190525078778287771978367867906148496236508153709303592350129704516432578314074470098769495753238915840085811644293357645589875375992534845603260865027815032711018083481676059630309728652360528042842943610644525298135991037793081877485511245247433224987341225913613236873191741505398329604229139669143915043327960030646869030670768248956738775708735485961, 346),
   (143792325888489065483236251149986335475490753864475587612728276529922779553438961885684190800314119607141379443489058596838396823330432160771380883705655787966919248618270978003589902110057945010733305079262777172275041226808677528136885057526541812043502150623466302643442673632627092764643302557772269559534323394220430182554814378511222218683448796987126719420560953330641393571063519720072147337873382698030853510432, 349),
   (520528219716330417049315229162950534421276528989401627158076361038320461983449042026176770697137112977851793585430392120554996500456164421992398799014473952440247679998140940372995445638409760938854564386931253363635649241047412651855523908246081359597477785256948015569262478550110075808008755259135615805514250687077957260848428050210624431634084645093398724302430651056921844727249941386661173363101645366871689707763, 351),
   (188951743757027941388901428186151043994923380023152790658381719056910327699992002255502167763060772010960201071511232339761463729665587685183240764042254044735809907839325161355397346766742743220804206872456044970999740674500210792623555178693327533533884436048272129651642279713689957518307178159066228537401672999409298485687979382226456668683172726168903736921782326333662629635991728723358005930805897268174423363918, 354),
   (687784347275581706655601198597589800141521103284276157996509457367153592827970888210027890657541210119895131900300885716731727975982739174066996381113804722838348064535143587333646342230943585323727313015740003694439056055180767285149740850443712222063339347215710551931977898157831445366638128499001071876142089717849846487904244951304302274006748723254809602395287667854531971875009892553023141588133466056154901044661, 356),
   (251041286755587322929294437488120277051655202698760797668725951939011061382209374196660180090002541693761723143609823286607080711233699798534453679106538723835997043555327409376780914914294408643160469250745101348470255460140980059079655410411954961053118861733734351455171932827608477558822916902135391234791862747015193968085049407226070330012463283988005504874279998766904169734378610781853446679668715110496538881301, 359),
   (918811109525449601921217641206520214009058041877464519467536984096780484658886309559776259129409302599167906705611953228981915403115341262636100465529931729239749179412498318319018148586317535633967317457727070935401134984115987016231538802107755157454415033945467726325929274149047027865291875861815531919338217654075609923191280830447417407845615619396100147839864795486869261227825715461583614847587497304417332305563, 361),
   (337203677195840003905086874322792918541324301369029478644586073163518437869811275608437887100493214053894621760959586835036362952943330243387448870849484944630987948844386882823079660531178535577666005506985835033292216539170567234956974740373546142785770317457986655561616043612700259226562118441286300214397125879045748841811200064774202188679340932318368754257230379943681018870612037574401186649064611510721160956142, 364),
   (124090953208069121437071969750787794023207342903802848141207674924174785136090549423905142452981502771833220808033127955293381566683145529566581184472610459624203565174734372878893315075473701092581090026570787292251535686414768742464166704457464980545163476824539089246674704049473695395374859586393358478898142323488835573786521623836906405433997463093159701566660779819274614944385229827379636686855777035945387231860, 367),
   (457895617337775058102795568380406959945635095315032509641056320470204957152174127374209975651501745228064584781642242155032577981060807004100684570703932596013311155494769835923116332628497957031624222198046205108408166682870496659692775139448045778211653229482549239320229657942557936008933231873791492787134145173673803267272264791958184636051450638813759298780978277533123329144781498063030859374497817262638478885564, 369),
   (169421378414976771498034360300750575179884985266562028567190838573975834146304427128457690991055645734383896369207629597362053852992498591517253291160455060524925127533064839291553043072544244101700962213277095890111021672662083764086326801595776937938311694908543218548484973438746436323305295793302852331239633714259307208890737973024528315339036736361090940548961962687255631783569154283321417968564192387176237187659, 372),
   (628553313919563822257707476715784633917373295338945125984278011109450344682789424646578033576816445674564255529760305806213219794602169774529009710205288274547472223147670553771661789799139145617310569811258025752311890405576330764760272433920332439751136388110695340814879251457749278759462647393153582148899041079902029744984637879921000049907826291899647389436648881569718393917041562391122460663373153756423839966213, 374),
   (233821832778077741879867181338271883817262865866087586866151420132715528221997665968527028490575717790937903057070833759911317763592007156124791612196367238131659667010933446003058185805279762169639531969787985579860023230874395044490821345418363667587422736377178666783135081542282731698520104830253132559390443281723555065134285291330612018565711380586668828870433383943935242537139461209497555366774813197389668467431, 377),
   (872155436262229977211904586391754126638390489680506699010744797095028920268051294062605816269847427360198378402874209924469215258198186692345472713492449798231090557950781753591407033053693512892755454247309186212877886651161493515950763618410496480101086806686876427101093854152714589235479991016844184446526353440828860392950884136663182829250103449588274731686716522110878454663530190311425881518070053226263463383519, 379),
   (326186133162074011477252315310516043362758043140509505430018554113540816180251183979414575284922937832714193522674954511751486506566121822937206794846176224538427868673592375843186230362081373821890539888493635643616329607534398574965585593285525683557806465700891783735809101453115256374069516640299724983000856186869993786963630667112030378139538690146014749650831979269468542044160291176473279687758199906622535305436, 382),
   (122319799935777754303969618241443516261034266177691064536256957792577806067594193992280465731846101687267822571003107941906807439962295683601452548067316084201910450752597140941194836385780515183208952458185113366356123602825399465612094597482072131334177424637834418900928413044918221140276068740112396868625321070076247670111361500167011391802327008804755531119061992226050703266560109191177479882909324964983450739539, 385),
   (459922447758524356182925764587827621141488840828118402656326161300092550814154169410974551151741342344127012866971685861569595974258231770341461580733108476599183294829765249938892584810534737088865661242776026257499024746623501990701475686532591213816507116638257415067490833048892511487438018462822612226031207223486691239618719240627962833176749553105880797007673090769950644282266010558827324359739061868337774780665, 387),
   (173390762804963682280963013249611013170341292992200637801434962810134891656936121867937405784206486063735883850848325569811737682295353377418731015936381895677892102150821499226962504473571595882502354288526561899077132329477060250494456333822786887608823182972623045480444044059432476830764132960484124809213765123254482597336257153716741988107634581520917060471892755220271392894414285980677901283621626324363341092311, 390),
   (655417083402762719022040190083529629783890087510518410889424159422309890463218540660803393864300517320921640956206670653888368439076435766642803240239523565662432146130105267077918266910100632435858899210630403978511560205423287746869044941850134435161351631636515111916078486544654762420288422590629991778828032165901944217931052041049284715046858718149066488583754614732625865140886001006962466852089747506093429328934, 392),
   (248403074609647070509353232041657729688094343166486477727091756421055448485559826910444486274569896064629301922402328177823691638409969155557622428050779431386061783383309896222531023158928139693190522800828923107855881317855426056063368032961200950926152268390239227416193746400424154957289312161848766884175824190876836858595868723557678907002759454178496199173242998983665202888395794381638774936942014304809409715666, 395),
   (943931683516658867935542281758299372814758504032648615362948674400010704245127342259689047843365605045591347305128847075730028225957882791118965226592961839267034776856577605645617888003926930834123986643149907809852349007850619013040798525252563613519378619882909064181536236321611788837699386215025314159868131925331980062664301149519179846610485925878285556858323396137927770975904018650227344760379654358275756919531, 397),
   (359637971419847028683441609349912061042422990036439122453283444946404078317393517400941527228322295522370303323254090735853140754089953343416325751331918460760740249982356067750980415329496160647801238911040114875553744971991085843968544238121226736750883254175388353453165306038534091547163466147924644694909758263551484403875098737966807521558595137759626797163021213928550480741819431105736618353704648310503063386341, 400),
   (137381705082381564957074694771666407318205582193919744777154275969526357917244323647159663401219116889545455869483062661095899768062362177185036437008792852010602775493260017880874518655867533367460073264017323882461530579300594792395983898962308613438837403094998351019109146906720022971016444068507214273455527656676667042280287717903320473235383342624177436516274103720706283643375022682391388211115175654612170213582, 403),
   (526171930465521393785596080975482340028727379802712622496500876963285950823045759568621510826669217686959095980120129991997296111678847138618689553743676623200608630139185868483749406451972652797372080601186350469827662118721278054876618333025641989470747253853843684403188032652737687978992980782382630667334670925071634771933501959569717412491518202250599581857329817250305066354126336873559016848571122757164611918021, 405),
   (202050021298760215213668895094585218571031313844241647038656336753901805116049571674350660157440979591792292856366129916926961706884677301229576788637571823309033713973447373497759772077557498674190878950855558580413822253588970773072621439881846523956766945479875974810824204538651272183933304620434930176256513635227507752422464752474771486396742989664230239433214649824117145479984513359446662469851311138751210976520, 408),
   (777892582000226828572625246114153091498470558300330341098826896502521949696790850946250041606147771428400327497009600180168802571506007609733870636254651519739779798797772387966375122498596369895634883960793900534593215676317537476329592543545109117233552740097522503021673187473807397908143222788674481178587577495625904846826489297027870222627460510207286421817876401822851010097940376433869650508927547884192162259602, 410),
   (300266536652087555829033345000063093318409635503927511664147182049973472582961268465252516059973039771362526413845705669545157792601318937357274065594295486619555002335940141755020797284458198779715065208866445606352981251058569465863222721808412119252151357677643686166365850364889655592543283996428349734934804913311599270875024868652757905934199756940012558821700291103620489897804985303473685096446033483298174632206, 413),
   (116203149684357884105835904515024417114224528940019947014024959453339733889606010896052723715209566391517297722158288094113976065736710428757265063384992353321767785904008834859193048549085322927749730235831314449658603744159666383289067193339855490150582575421248106546383584091212296714314250906617771347419769501451588917828634624168617309596535305935784860263998012657101129590450529312444316132324614958036393582664, 416),
   (450868220775308590330643309518294738403191172287277394414416842678958167491671322276684568015013117599087115161974157805162227135058436463578188445933770330888459009307554279253669028370451052959668953315025500064675382527339505567161580710158639301784260392634442653399968306273903711251539293517676952827988705665632165001175102341774235161234556987030845257824312289109552382810948053732283946593419506037181207100736, 418),
   (175387737881595041638620247402616653238841366019750906427208151802114727154260144365630296957840102746044887798007947386208106355537731784331915305468236658715610554620638614629677252036105459601311222839544919525158723803135067665625854896251710688394077292734798192172587671140548543676848785178376334650087606503930912185457114810950177477720242667954998805293657480463615876913458792901858455224840187848463489562186, 421),
   (684012177738220662390618964870204947631481327477028535066111792028247435901614563025958158135576400709575062412230994806211614786597153958894469691326122968990881163020490597055741282940811292445113769074225186148119022832226763895940834095381671684736901441665712949473091917448139320339710262195667705135341665365330557523282747762705692163108946405024495340645264173808101919962489292317247975376876732609007609292526, 423),
   (267448761495644278994732015264250134523909199043518157210849710683044747437531294143149639831010372677443849403182318969228741381559487197927737649308514080875434534741011823448794841629857215346039483708022047783914537927400664683312866131294233628732128463691293763243978939722222474252826712518506072707918591157844247991603554375217925635775598044364577678192298291958967850705333313296043958372358802450121975233378, 426),
   (104839914506292557365934949983586052733372406025059117626653086587753540995512267304114658813756066089557988966047469035937666621571318981587673158528937519703170337618476634791927577918904028415647477613544642731294498867541060555858643523467339582462994357766987155191639744371111209907108071307254380501504087733874945212708593315085426849224034433390914449851380930447915397476490658812049231681964650560447814291484, 429),
   (412020864009729750448124353435493187242153555678482332272746630289871416112363210505170609138061339731962896636566553311235029822775283597639555513018724452433459426840613174732275381221292831673494587021230445933987380549436367984524469047226644559079567826024259519903144195378467054934934720237509715370911064794128534685944771728285727517450455323226293787915927056660307512082608289131353480510121076702559910165532, 431),
   (162336220419833521676560995253584315773408500937322038915462172334209337948271104939037220000396167854393381274807222004626601750173461737469984872129377434258783014175201590844516500201189375679356867286364795697991027936477928985902640804607297956277349723453558250841838812979116019644364279773578827856138959528886642666262240060944576641875479397351159752438875260324161159760547665917753271320987704220808604605220, 434),
   (641228070658342410622415931251658047304963578702422053716075580720126884895670864509197019001564863024853856035488526918275076913185173863006440244911040865322192905992046283835840175794698033933459625781140943007064560349087819494315431178198826927295531407641555090825263311267508277595238905105636370031748890139102238531735848240731077735408143619537081022133557278280436581054163280375125421717901431672193988190618, 436),
   (253926315980703594606476708775656586732765577166159133271565929965170246418685662345642019524619685757842126990053456659636930457621328849750550336984772182667588390772850328398992709614700421437650011809331813430797565898238776519748910746566735463209030437426055815966804271261933277927714606421832002532572560495084486458567395903329506783221624873336684084764888682199052886097448659028549667000288966942188819323485, 439),
   (100808747444339327058771253383935664932907934134965175908811674196172587828218207951219881751274015245863324415051222293875861391675667553350968483782954556519032591136821580374400105717036067310747054688304729932026633661600794278340317566386993978893985083658144158938821295690987511337302698749467305005431306516548541124051256173621814192938985074714663581651660806833023995780687117634334217799114719876048961271423, 442),
   (401218814828470521693909588468063946432973577857161400117070463300766899556308467645855129370070580678536031171903864729625928338869156862336854565456159134945749712724549889890112420753803547896773277659452825129466001973171161227794463914220236035998060632959413752576508756850130295122464741022879873921616599935863193673723999571014820487897160597364361054973610011195435503207134728184650186840476585106674865860265, 444),
   (160086307116559738155869925798757514626756457565007398646711114857005992922967078590696196618658161690735876437589642027120745407208793588072404971617007494843354135377095406066154855880767615610812537786121677226656934787295293329889991101773874178363226192550806087278026993983201987753863431668129069694725023374409414275815875828834913374670967078348380060934470394466978765779646756545675424549350157457563271478246, 447),
   (640345228466238952623479703195030058507025830260029594586844459428023971691868314362784786474632646762943505750358568108482981628835174352289619886468029979373416541508381624264619423523070462443250151144486708906627739149181173319559964407095496713452904770203224349112107975932807951015453726672516278778900093497637657103263503315339653498683868313393520243737881577867915063118587026182701698197400629830253085912983, 449),
   (256778436614961820002015360981207053461317357934271867429324628230637612648439194059476699376327691351940345805893785811501675633162904915268137574473680021728740033144861031330112388832751255439743310608939170271557723398821650501143545727245294182094614812851492963993955298349055988357196944395679027790338937492552700498408664829451201052972231193670801617738890512725033940310553397499263380977157652561931487451106, 452),
   (103224931519214651640810175114445235491449577889577290706588500548716320284672556011909633149283731923480019013969301896223673604531487775937791304938419368734953493324234134594705180310766004686776810864793546449166204806326303501459705382352608261202035154766300171525570029936320507319593171647062969171716252872006185600360283261439382823294836939855662250331033986115463644004842465794703879152817376329896457955345, 455),
   (415996474022435046112465005711214299030541798894996481547551657211326770747230400727995821591613439651624476626296286641781404626261895737029298958901830056001862578096663562416661876652386998887710547785117992190139805369495003110882612690881011292644201673708189691248047220643371644497960481737663765762016499074184927969451941543600712777878192867618318868834066964045318485339515137152656632985854026609482725560039, 457),
   (168062575505063758629435862307330576808338886753578578545210869513376015381881081894110311923011829619256288557023699803279687469009805877759836779396339342624752481551052079216331398167564347550635061305187668844816481369275981256796575527115928562228257476178108635264211077139922144377176034622016161367854665625970710899658584383614687962262789918517800823008963053474308668077164115409673279726285026750231021126256, 460),
   (680653430795508222449215242344688836073772491351993243108104021529172862296618381671146763288197909957987968655945984203282734249489713804927338956555174337630247550281760920826142162578635607580071998286010058821506749545567724090026130884819510677024442778521339972820054862416684684727562940219165453539811395785181379143617266753639486247164299169997093333186300366570950105712514667409176782891454358338435635561336, 462),
   (276345292902976338314381388391943667445951631488909256701890232740844182092427062958485585895008351442943115274314069586532790105292823804800499616361400781077880505414394933855413718006926056677509231304120083881531740315500495980550609139236721334871923768079664028964942274141173981999390553728981174137163426688783639932308610301977631416348705463018819893273637948827805742919280954968125773853930469485404868037903, 465),
   (112472534211511369693953225075521072650502314015986067477669324725523582111617814624103633459268399037277847916645826321718845572854179288553803343859090117898697365703658738079153383228818905067746257140776874139783418308408701864084097919669345583292872973608423259788731505575457810673751955367695337873825514662334941452449604392904895986453923123448659696562370645172916937368147348672027189958549701080559781291426, 468),
   (458887939582966388351329158308125976414049441185223155308890844880136215015400683666342824513815068072093619499914971392612889937245051497299517642945087681026685252070927651362945803573581132676404729134369646490316346698307503605463119512250929979834921732322366899938024542747867867548907977900196978525208099822326561125994385923051975624732006343670531561974472232305501104462041182581870935030882780408683907669020, 470),
   (187685167289433252835693625748023524353346221444756270521336355555975711941298879619534215226150362841486290375465223299578671984333226062395502715964540861539914268097009409407444833661594683264649534215957185414539385799607768974634415880510630361752482988519848062074652037983877957827503362961180564216810112827331563500531703842528258030515390594561247408847559143012949951724974843675985212427631057187151718236629, 473),
   (769509185886676336626343865566896449848719507923500709137479057779500418959325406440090282427216487650093790539407415528272555135766226855821561135454617532313648499197738578570523818012538201385063090285424460199611481778391852796001105110093584483185180252931377054506073355733899627092763788140840313288921462592059410352179985754365857925113101437701114376274992486353094802072396859071539370953287334467322044770179, 475),
   (316268275399423974353427328747994440887823717756558791455503892747374672192282742046877106077585976424188547911696447782120020160799919237742661626671847805780909533170270555792485289203153200769260930107309453142040319010919051499156454200248463222589109083954795969401996149206632746735125916925885368761746721125336417654745974145044367607221484690895158008649021911891121963651755109078402681461801094466069360400544, 478),
   (130302529464562677433612059444173709645783371715702222079667603811918364943220489723313367703965422286765681739618936486233448306249566725949976590188801295981734727666151468986503939151699118716935503204211494694520611432498649217652459130502366847706712942589375939393622413473132691654871877773464771929839649103638604073755341347758279454175251692648805099563397027699142249024523104940301904762262050920020576485024, 481),
   (538149446688643857800817805504437420837085325185850177189027203743222847215500622557284208617377194044342265584626207688144141504810710578173403317479749352404564425261205566914261268696517360300943628233393473088370125216219421268904656208974775081028724452894122629695660567644038016534620855204409508070237750798027434824609559766241694145743789490639565061196829724397457488471280423403446866668142270299684980883149, 483),
   (222793870929098557129538571478837092226553324626941973356257262349694258747217257738715662367594158334357697952035249982891674582991634179363788973436616231895489672058139104702504165240358187164590662088624897858585231839514840405326527670515556883545891923498166768694003475004631738845333034054625536341078428830383358017388357743224061376337928849124779935335487505900547400227110095289027002800610899904069582085624, 486),
   (924594564355759012087585071637173932740196297201809189428467638751231173800951619615669998825515757087584446500946287429000449519415281844359724239761957362366282139041277284515392285747486476733051247667793326113128712133986587682105089832639561066715451482517392090080114421269221716208132091326695975815475479646090935772161684634379854711802404723867836731642273149487271710942506895449462061622535234601888765655338, 488),
   (384631338771995749028435389801064356019921659635952622802242537720512168301195873760118719511414554948435129744393655570464187000076757247253645283740974262744373369841171350358403190870954374320949319029802023663061544247738420475755717370378057403753627816727235109473327599247996233942582949991905525939237799532773829281219260807902019560109800365129020080363185630186705031752082868506976217634974657594385726512621, 491),
   (160391268267922227344857557547043836460307332068192243708535138229453574181598679357969506036259869413497449103412154372883565979032007772104770083319986267564403695223768453099454130593187974091835866035427443867496663951306921338390134143447649937365262799575257040650377608886414429554057090146624604316662162405166686810268431756895142156565786752258801373511448407787855998240618556167409082753784432216858847955763, 494),
   (670435501359914910301504590546643236404084648045043578701676877799115940079082479716312535231566254148419337252262805278653305792353792487397938948277542598419207446035352133955718265879525731703873920028086715366136055316462931194470760719611176738186798502224574429918578405145212315535958636812890846043647838853596750866922044743821694214444988624441789741277854344553238072645785564779769965910818926666469984455088, 496),
   (280912475069804347416330423439043516053311467530873259476002611797829578893135559001134952262026260488187702308698115411755735126996239052219736419328290348737647919888812544127445953403521281583923172491768333738411007177597968170483248741517083053300268572432096686135884351755843960209566668824601264492288444479657038613240336747661289875852450233641109901595420970367806752438584151642723615716633130273250923486682, 499),
   (117983239529317825914858777844398276742390816362966768979921096955088423135116934780476679950051029405038834969653208472937408753338420401932289296117881946469812126353301268533527300429478938265247732446542700170132623014591146631602964471437174882386112800421480608177071427737454463288018000906332531086761146681455956217560941434017741747858029098129266158670076807554478836024205343689943918600985914714765387864406, 502),
   (496709438418428047101555454724916745085465336888090097405467818180922261398842295425806822589714833795213495222240007671066490851554749892134937936656282994637909051947398340526149934808106330096692953599944767716258342891428727319048480424750506254845534889774433360425470710774683290442555783815659955875264427528929575675931563437214692758482302503124210528001023359804355899661904496934663897310150700949162282909151, 504),
   (209611383012576635876856401893914866426066372166774021105107419272349194310311448669690479132859659861580094983785283237190059139356104454480943809268951423737197619921802099702035272489020871300804426419176691976261020700182922928638458739244713639544815723484810878099548639946916348566758540770208501379361588417208280935243119770504600344079531656318416842816431857837438189657323697706428164664883595800546483387662, 507),
   (886656150143199169759102580011259884982260754265454109274604383522037091932617427872790726731996361214483801781411748093313950159476321842454392313207664522408345932269222881739609202628558285602402723753117407059584117561773763988140680467005138695274570510340750014361090746975456154437388627457981960834699519004791028356078396629234459455456418906226903245113506758652363542250479241298191136532457610236311624729809, 509),
   (375942207660716447977859493924774191232478559808552542332432258613343726979429789418063268134366457154941131955318581191565114867617960461200662340800049757501138675282150501857594301914508713095418754871321780593263665846192075930971648518010178806796417896384478006089102476717593409481452778042184351393912596058031396022977240170795410809113521616240206975928126865668602141914203198310433041889762026740196128885439, 512),
   (159775438255804490390590284918029031273803387918634830491283709910671083966257660502676888957105744290849981081010397006415173818737633196010281494840021146937983936994913963289477578313666203065552970820311756752137057984631632270662950620154325992888477605963403152587868552604977199029617430667928349342412853324663343309765327072588049593873246686902087964769453917909155910313536359281934042803148861364583354776312, 515),
   (680643366969727129063914613750803673226402432533384377892868604219458817696257633741403546957270470679020919405104291247328640467822317415003799168018490085955811571598333483613174483616218025059255655694528083764103867014530753473024169641857428729704914601404097430024320034097202867866170254645374768198678755163065842499600293329225091269900030886202894729917873690293004177935664890541039022341414149413125091347088, 517),
   (290634717696073484110291540071593168467673838691755129360254894001708915156302009607579314550754490979941932585979532362609329479760129536206622244743895266703131541072488397502825504504125096700302164981563491767272351215204631732981320437073122067583998534799549602620384654559505624578854698733575026020835828454629114747329325251579113972247313188408636049674932065755112783978528908261023662539783841799404414005206, 520),
   (124391659173919451199204779150641876104164402960071195366189094632731415686897260112043946627722922139415147146799239851196793017337335441496434320750387174148940299579025034131209315927765541387729326612109174476392566320107582381716005147067296244925951372894207229921524632151468407319749811057970111136917734578581261111856951207675860780121850044638896229260870924143188271542810372735718127567027484290145089194228, 523),
   (533640217856114445644588502556253648486865288698705428120951215974417773296789245880668531032931335978090981259768738961634242044377169044019703236019160977098953885194017396422887965330114172553358811165948358503724109513261528417561662080918700890732331389716149016363340671929799467401726689438691776777377081342113610169866320680929442746722736691500864823529136264574277684918656499036230767262547907604722432643240, 525),
   (229465293678129211627173056099189068849352074140443334092009022868999642517619375728687468344160474470579121941700557753502724079082182688928472391488239220152550170633427480461841825091949094197944288801357794156601367090702457219551514694795041383014902497577944077036236488929813770982742476458637464014272144977108852373042517892799660381090776777345371874117528593766939404515022294585579229922895600270030646036593, 528),
   (988995415752736902113115871787504886740707439545310769936558888565388459250939509390642988563331644968196015568729403917596740780844207389281716007314311038857491235430072440790538266146300595993139884733852092814951892160927590616267028334566628360794229764560938972026179267287497352935620073536727469901512944851339153727813252117966536242501247910358552777446548239135508833459746089663846480967680037163832084417716, 530),
   (427246019605182341712866056612202111071985613883574252612593439860247814396405868056757771059359270626260678725691102492401792017324697592169701315159782368786436213705791294421512530975201857469036430205024104096059217413520719146227356240532783451863107258290325635915309443468198856468187871767866266997453592175778514410415324914961543656760539097274894799856908839306539816054610310734781679778037776054775460468453, 533),
   (184997526489043953961671002513083514094169770811587651381252959459487303633643740868576114868702564181170873888224247379209975943501594057409480669464185765684526880534607630484514925912262404284092774278775437073593641140054471390316445252150695234656725442839711000351328989021730104850725348475486093609897405412112096739709835688178348403377313429120029448338041527419731740351646264548160467343890357031717774382840, 536),
   (802889264962450760193652150906782451168696805322290406994637844054174897770013835369620338530169128546281592674893233625771295594796918209157146105474566223070846661520197116302794778459218834592962640369885396899396402547836405833973372394334017318410188421924345741524767812354308655052148012383609646266954739488566499850340686886694032070657540282380927805787100229001635753126144788139016428272484149517655140821527, 538),
   (349256830258666080684238685644450366258383110315196327042667462163566080529956018385784847260623570917632492813578556627210513583736659420983358555881436307035818297761285745591715728629760193047938748560900147651237435108308836537778416991535297533508431963537090397563273998374124264947684385386870196126125311677526427434898198795711903950736030022835703595517388599615711552609872982840472146298530605040179986257364, 541),
   (152275977992778411178328066940980359688655036097425598590603013503314811111060824016202193405631876920087766866720250689463783922509183507548744330364306229867616777823920585077988057682575444168901294372552464375939521707222652730471389808309389724609676336102171413337587463291118179517190392028675405510990635891401522361615614674930390122520909089956366767645581429432450236937904620518445855786159343797518474008211, 544),
   (665446023828441656849293652532084171839422507745749865840935169009485724555335800950803585182611302140783541207567495512956735741365131927988012723692018224521485319090532956790807812072854691018098656408054269322855709860562992432159973462312033096544285588766489076285257214582186444490122013165311522083029078845424652720260236129445804835416372723109322774611190846619807535418643191665608389785516332395155731415881, 546),
   (291465358436857445699990619809052867265667058392638441238329604026154747355237080816451970309983750337663191048914563034675050254717927784458749572977103982340410569761653435074373821687910354665927211506727769963410800918926590685286068376492670496286397087879722215412942659986997662686673441766406446672366736534295997891473983424697262517912371252721883375279701590819475700513365717949536474726056153589078210360156, 549),
   (127953292353780418662295882096174208729627838634368275703626696167481934088949078478422414966082866398234140870473493172222347061821170297377391062536948648247440240125365857997650107720992645698342045851453491013937341603408773310840584017280282347869728321579198052566281827734291973919449640935452430089168997338555943074357078723442098245363530979944906801747788998369749832525367550179846512404738651425605334348108, 552),
   (562994486356633842114101881223166518410362489991220413095957463136920509991375945305058625850764612152230219830083369957778327072013149308460520675162574052288737056551609775189660473972367641072705001746395360461324303054998602567698569676033242330626804614948471431291640042030884685245578420115990692392343588289646149527171146383145232279599536311757589927690271592826899263111617220791324654580850066272663471131677, 554),
   (248280568483275524372318929619416434618969858086128202175317241243381944906196791879530854000187193959133526945066766151380242238757798845031089617746695157059333041939259910858640269021814129713062905770160353963444017647254383732355069227130659867806420835192275901199613258535620146193300083271151895345023522435733951941482475554967047435303395513485097158111409772436662575032223194368974172670154879226244590769070, 557),
   (109740011269607781772564966891782064101584677274068665361490220629574819648538982010752637468082739729937018909719510638910067069530947089503741611044039259420225204537152880599518998907641845333173804350410876451842255800086437609700940598391751661570438009154985948330229060272744104617438636805849137742500396916594406758135254195295434966404100816960412943885243119417004858164242651911086584320208456618000109119929, 560),
   (486148249924362473252462803330594543970020120324124187551401677389016451043027690307634183983606537003620993770057432130371597118022095606501575336925093919231597656099587261055869165160853374825959953272320182681661193194382918610975166850875459860757040380556587751102914737008256383455253161049911680199276758340513221938539176085158776901170166619134629341411627019017331521667594947966113568538523462817740483401285, 562),
   (215849822966416938124093484678783977522688933423911139272822344760723304263104294496589577688721302429607721233905499865884989120401810449286699449594741700138829359308216743908805909331418898422726219252910161110657569778306015863272974081788704178176125928967124961489694143231665834254132403506160786008478880703187870540711394181810496944119553978895775427586762396443695195620412156896954424431104417491076774630170, 565),
   (960531712200555374652216006820588699975965753736404569764059434185218703970814110509823620714809795811754359490879474403188201585788056499325812550696600565617790648921564510394186296524814097981131675675450216942426185513461770591564734663959733592883760383903706078629138937380912962430889195602415497737731019129186023906165704109056711401332015206086200652761092664174443620510834098191447188718414657835291647104258, 567),
   (428397143641447697094888339041982560189280726166436438114770507646607541970983093287381334838805168932042444332932245583821937907261473198699312397610683852265534629419017771635807088250067087699584727351250796756322078739003949683837871660126041182426157131221052911068595966071887181244176581238677311991028034531616966662149904032639293284994078781914445491131447328221801854747832007793385446168412937394540074608499, 570),
   (191493523207727120601415087551766204404608484596397087837302416918033571261029442699459456672945910512622972616820713775968406244545878519818592641731975681962693979350300943921205768447779988201714373126009106150075969196334765508675528632076340408544492237655810651247662396834133570016146931813688758459989531435632784097981007102589764098392353215515757134535756955715145429072280907483643294437280583015359413349999, 573),
   (857890983970617500294339592231912595732646010991858953511114827792790399249411903293578365894797679096550917323356797716338459975565535768787295034959251055192869027489348228767001842646054347143680391604520795552340341999579749478866368271702005030279325224698031717589527537816918393672338254525325637900753100831634872758954911819602143160797742405510591962720191161603851522243818465526721959079017011908810171807996, 575),
   (385193051802807257632158476912128755483958058935344670126490557678962889262985944578816686286764157914351361878187202174635968529028925560185495470696703723781598193342717354716383827348078401867512495830429837203000813557811307516010999353994200258595417025889416241197697864479796358758879876281871211417438142273404057868770755407001362279198186340074255791261365831560129333487474491021498159626478638347055767141790, 578),
   (173336873311263265934471314610457939967781126520905101556920750955533300168343675060467508829043871061458112845184240978586185838063016502083472961813516675701719187004222809622372722306635280840380623123693426741350366101015088382204949709297390116367937661650237308538964039015908361441495944326842045137847164023031826040946839933150613025639183853033415106067614624202058200069363520959674171831915387256175095213806, 581),
   (781749298633797329364465628893165309254692880609282008021712586809455183759229974522708464818987858487176088931780926813423698129664204424396463057778960207414753533389044871396900977602925116590116610287857354603490151115578048603744323188931229424819398854042570261510727815961746710101146708914057623571690709743873535444670248098509264745632719177180702128364941955151282482312829479528130514961938396525349679414263, 583),
   (353350682982476392872738464259710719783121182035395467625814089237873743059171948484264226098182512036203592197164978919667511554608220399827201302116090013751468597091848281871399241876522152698732707850111524280777548304241277968892434081396915700018368282027241758202848972814709512965718312429154045854404200804230838020990952140526187665025989068085677362020953763728379682005398924746714992762796155229458055095247, 586),
   (160067859391061805971350524309648956061753895462034146834493782424756805605804892663371694422476677952400227265315735450609382734237523841121722189858588776229415274482607271687743856570064535172525916656100520499192229381821298919908272638872802812108320831758340516465890584685063409373470395530406782772045102964316569623508901319658363012256773047842811844995492054968955995948445712910261891721546658318944498958147, 589),
   (726708081635420599109931380365806260520362685397635026628601772208395897450354212691707492678044117903897031784533438945766597613438358238692618741957993044081545346151037013462357108828092989683267661618696363066332721393468697096383557780482524766971776576182865944755143254470187878555555595708046793785084767457997226090730411991248968075645749637206365776279533929559060221605943536612588988415821828768008025269987, 591),
   (330652177144116372595018778066441848536765021855923937116013806354820133339911166774726909168510073646273149461962714720323801914114452998605141527590886835057103132498721841125372484516782310305886786036506845195181388234028257178854518790119548768972158342163204004863590180783935484742777796047161291172213569193388737871282337456018280474418816084928896428207187937949372400830704309158727989729198932089443651497844, 594),
   (150777392777717065903328562798297482932764849966301315324902295697797980802999492049275470580840593582700556154654997912467653672836190567363944536581444396786039028419417159553169852939652733499484374432647121409002713034716885273557660568294514238651304204026421026217797122437474581042706674997505548774529387552185264469304745879944335896334980134727576771262477699704913814778801164976379963316514713032786305083017, 597),
   (689052684994166991178211531988219497002735364345997011034803491338936772269707678665188900554441512672941541626773340459977177284861390892853226532177200893312198359876736419157986227934212992092643591157197344839142398568656165700158508797105930070636460212400744089815332849539258835365169504738600357899599301113486658624722688671345615046250859215705025844669523087651456133539121323942056432356472238559833414229387, 599),
   (315586129727328481959620881650604529627252796870466631053939999033233041699526116828656516453934212804207226065062189930669547196466517028926777751737158009136986848823545279974357692393869550378430764749996383936327218544444523890672597029074515972351498777279540793135422445088980546597247633170278963918016479909976889650122991411476291691182893520792901836858641574144366909160917566365461846019264285260403703717059, 602),
   (144854033544843773219465984677627479098909033763544183653758459556253966140082487624353341052355803677131116763863545178177322163178131316277390988047355526193876963610007283508230180808786123623699721020248340226774193311900036465818722036345202831309337938771309224049158902295842070888136663625158044438369564278679392349406453057867617886252948126043941943118116482532264411304861162961746987322842306934525300006130, 605),
   (666328554306281356809543529517086403854981555312303244807288913958768244244379443072025368840836696914803137113772307819615681950619404054875998545017835420491834032606033504137858831720416168669018716693142365043161289234740167742766121367187933024022954518348022430626130950560873526085428652675727004416499995681925204807269684066191042276763561379802132938343335819648416292002361349624036141685074611898816380028199, 607),
   (307177463535195705489199567107376832177146496998971795856160189334992160596658923256203695035625717277724246209449033904842829379235545269297835329253222128846735489031381445407552921423111853756417628395538630284897354337215217329415181950273637124074582032958438340518646368208562695525382608883510149036006498009367519416151324354514070489588001796088783284576277812857919910613088582176680661316819396085354351193000, 610),
   (141915988153260415936010200003608096465841681613524969685546007472766378195656422544366107106459081382308601748765453664037387173206821914415599922114988623527191795932498227778289449697477676435464944318738847191622577703793430406189814061026420351322456899226798513319614622112355965332726765304181688854635002080327793970261911851785500566189656829793017877474240349540358998703246924965626465528370560991433710251166, 613),
   (657071025149595725783727226016705486636846985870620609644078014598908331045889236380415075902905546800088826096784050464493102611947585463744227639392397326930898015167466794613480152099321641896202692195760862497212534768563582780658839102552326226622975443420077116669815700380208119490524923358361219396960059631917686082312651873766867621458111121941672772705732818371862163996033262590850535396355697390338078462898, 615),
   (304880955669412416763649432871751345799497001443967962874852198773893465605292605680512595218948173715241215308907799415524799611943679655177321624678072359695936679037704592700654790574085241839838049178833040198706616132613502410225701343584279369153060605746915782134794484976416567443603564438279605800189467669209806342193070469427826576356563560580936166535460027724544044094159433842154648423909043589116868406785, 618),
   (141769644386276773795096986285364375796766105671445102736806272429860461506461061641438356776810900777587165118642126728219031819553811039657454555475303647258610555752532635605804477616949637455524692868157363692398576501665278620754951124766689906656173181672315838692679435514033703861275657463800016697088102466182559949119777768283939358005802055670135317438988912891912980503784136736601911517117705268939343809155, 621),
   (660646542840049765885151956089797991212930052428934178753517229523149750620108547249102742579938797623556189452872310553500688279120759444803738228514914996225125189806802081923048865694985310542745068765613314806577366497760198372718072241412774965017767026592991808307886169495397059993544563781308077808430557492410729362898164400203157408307037579422830579265688334076314489147634077192564907669768506553257342150662, 623),
   (308521935506303240668365963493935661896438334484312261477892546187310933539590691565330980784831418490200740474491369028484821426349394660723345752716465303237133463639776572258063820279558140023461947113541418014671630154454012640059339736739765908663297201418927174479782841154350427016985311285870872336537070348955810612473442774894874509679386549590461880517076452013638866431945114048927811881781892560371178784359, 626),
   (144388265816949916632795270915161889767533140538658138371653711615661516896528443652574899007301103853413946542061960705330896427531516701218525812271305761914978460983415435816773867890833209530980191249137383630866322912284477915547770996794210445254423090264057917656538369660235999843949125681787568253499348923311319366637571218650801270529952905208336160081991779542382989490150313374898215960673925718253711671080, 629),
   (677180966681495109007809820592109263009730429126306668963055907477452514244718400730576276344242177072511409282270595708001904245122813328714886059552424023381248982012218393980669440408007752700297096958454329228763054458614201423919045974964846988243244293338431633809164953706506839268121399447583695108911946450330087829530209015472257958785479125427096590784541446053776220708804969728272632855560711618609907737365, 631),
   (318275054340302701233670615678291353614573301689364134412636276514402681695017648343370849881793823224080362362667179982760894995207722264495996447989639290989187021545742645170914636991763643769139635570473534737518635595548674669241951608233478084474324817869062867890307528242058214456017057740364336701188614831655141279879198237271961240629175188950735397668734479645274823733138335772288137442113534460746656636562, 634),
   (149907550594282572281058859984475227552464025095690507308351686238283663078353312369727670294324890738541850672816241771880381542742837186577614327003120106055907087148044785875500794023120676215264768353693034861371277365503425769212959207477968177787406989216328610776334845802009419008784034195711602586259837585709571542823102369755093744336341513995796372301973939912924441978308156148747712735235474731011675275821, 637),
   (707563638805013741166597819126723074047630198451659194495419959044698889729827634385114603789213484285917535175692661163275400881746191520646339623454726900583881451338771389332363747789129591736049706629431124545672429165176169630685167459296009799156560989101071042864300472185484457721460641403758764207146433404549177682125043185244042473267531946060158877265316996389003366137614497022089204110311440730375107301873, 639),
   (334677601154771499571800768446940014024529083867634798996333640628142574842208471064159207592297978067238994138102628730229264617065948589265718641894085823976175926483238867154208052704258296891151511235720921910103058995128328235314084208247012635001053347844806603274814123343734148502250883383977895469980263000351761043645145426620432089855542610486455148946494939291998592183091657091448193544177311465467425753786, 642),
   (158637182947361690797033564243849566647626785753258894724262145657739580475206815284411464398749241603871283221460646018128671428489259631311950636257796680564707389153055223031094616981818432726405816325731716985388849963690827583538875914709083988990499286878438329952261894464929986390066918724005522452770644662166734734687798932218084810591527197370579740600638601224407332694785445461346443739940045634631559807295, 645),
   (753526618999968031285909430158285441576227232327979749940245191874263007257232372600954455894058897618388595301938068586111189285323983248731765522224534232682360098477012309397699430663637555450427627547225655680597037327531431021809660594868148947704871612672582067273243998708417435352817863939026231650660562145291989989767044928035902850309754187510253767853033355815934830300230865941395607764715216764499909084649, 647),
   (358678670643984782892092888755343870190284162588118360971556711332149191454442609358054321005572035266352971363722520646988926099814216026396320388578878294756803406875057859273304928995891476394403550712479412103964189767904961166381398443157238899107518887632149064022064143385206699227941303234976486265714427581158987235129113385745089756747442993254880793498043877368384979222909892188104309296004443179901956724293, 650),
   (171089725897180741439528307936299026080765545554532458183432551305435164323769124663791911119657860822050367340495642348613717749611381044591044825352124946598995225079402598873366451131040234240130493689852679573590918519290666476363927057386002954874286509400535103538524596394743595531728001643083783948745781956212836911156587085000407813968530307782578138498566929504719635089328018573725755534194119396813233357488, 653),
   (817808889788523944080945311935509344666059307750665150116807595239980085467616415892925335151964574729400755887569170426373570843142401393145194265183157244743197175879544422614691636406372319667823759837495808361764590522209385757019571334305094124299089514934557794914147570766874386641659847853940487275004837750697360435328486266301949350769574871200723502023149923032559855726987928782409111453447890716767255448791, 655),
   (391730458208702969214772804417108976095042408412568606905950838119950460938988263212711235537791031295382962070145632634232940433865210267316548053022732320231991447246301778432437293838652341120887580962160492205285238860138295777612374669132140085539263877653653183763876686397332831201355067122037493404727317282584035648522344921558633739018626363305146557469088813132596170893227217886773964386201539653331515359971, 658),
   (188030619940177425223090946120212308525620356038032931314856402297576221250714366342101393058139695021783821793669903664431811408255300928311943065450911513711355894678224853647569901042553123738026038861837036258536914652866381973253939841183427241058846661273753528206660809470719758976650432218577996834269112295640337111290725562348144194728940654386470347585162630303646162028749064585651502905376739033599127372786, 661),
   (904427281912253415323067450838221204008233912542938399624459295051341624215936102105507700609651933054780182827552236625917012873707997465180446144818884380951621853402261546044811224014680525179905246925436144403562559480287297291351450636092285029493052440726754470674038493554162040677688578971360164772834430142030021505308389954894573576646204547598922371884632251760538039358283000656983728974862114751611802663101, 663),
   (435933949881706146185718511304022620331968745845696308618989380214746662872081201214854711693852231732404048122880178053692000205127254778216975041802702271618681733339890065193599009975076013136714329018060221602517153669498477294431399206596481384215651276430295654864886553893106103606645895064195599420506195328458470365558643958259184463943470591942680583248392745348579334970692406316666157365883539310276888883615, 666),
   (210556097792864068607702040959842925620340904243471317062971870643722638167215220186774825748130627926751155243351125999933236099076464057878798945190705197191823277203166901488508321817961714345033020915723087034015785222367764533210365816786100508576159566515832801299740205530370248042009967316006474520104492343645441186564825031839186096084696295908314721708973696003363818790844432250949754007721749486863737330786, 669),
   (101909151331746209206127787824563976000244997653840117458478385391561756872932166570399015662095223916547559137781944983967686271953008604013338689472301315440842466166332780320438027759893469742995982123209974124463640047625998034073817055324472646150861230193663075829074259476699200052332824180947133667730574294324393534297375315410166070504993007219624325307143268865628088294768705209459680939737326751642048868100, 672),
   (494259383958969114649719770949135283601188238621124569673620169149074520833721007866435225961161835995255661818242433172243278418972091729464692643940661379888085960906713984554124434635483328253530513297568374503648654230986090465258012718323692333831676966439265917771010158461991120253814197277593598288493285327473308641342270279739305441949216085015177977739644853998296228229628220265879452557726034745463937010287, 674),
   (240210060604058989719763808681279747830177483969866540861379402206450217125188409823087519817124652293694251643665822521710233311620436580519840624955161430625609777000662996493304475232844897531215829462618230008773245956259239966115394181105314474242195005689483236036710937012527684443353699876910488768207736669152027999692343355953302444787319017317376497181467399043171966919599315049217413943054852886295473386999, 677),
   (116982299514176727993524974827783237193296434693325005399491768874541255739966755583843622150939705667029100550465255568072883622759152614713162384353163616714671961399322879292239279438395465097702108948295078014272570780698249863498196966198288148955948967770778335949878226325100982323913251840055408030117167757877037635850171214349258290611424361433562354127374623334024747889844866428968880590267713355625895539469, 680),
   (570873621629182432608401877159582197503286601303426026349519832107761328011037767249156876096585763655102010686270447172195672079064664759800232435643438449567599171628695650946127683659369869676786291667679980709650145409807459333871201195047646166905030962721398279435405744466492793740696668979470391186971778658439943662948835526024380458183750883795784288141588161870040769702442948173368137280506441175454370232607, 682),
   (279157200976670209545508517931035694579107148037375326884915197900695289397397468184837712411230438427344883225586248667203683646662621067542313661029641401838555994926432173312656437309431866271948496625495510567018921105395847614263017384378298975616560140770763758643913409044114976139200671130961021290429199763977132451181980572225922044051854182176138516901236611154449936384494601656777019130167649734797187043745, 685),
   (136787028478568402677299173786207490343762502538313910173608446971340691804724759410570479081502914829398992780537261846929804986864684323095733693904524286900892437513951764923201654281621614473254763346492800177839271341643965330988878518345366498052114468977674241735517570431616338308208328854170900432310307884348794901079170480390701801585408549266307873281605939465680468828402354811820739373782148370050621651435, 688),
   (671624309829770857145538943290278777587873887463121298952417474629282796761198568705901052290179311812349054552437955668425342485505600026400052437071214248683381868193503165772920122522762127063680888031279648873190822287471869775155393525075749505435882042680380526921391270819236221093302894673979121122643611712152582964298727058718345845784355976897571657812685162776491101947455562126039830325270348496948552308546, 690),
   (330439160436247261715605160098817158573233952631855679084589397517607136006509695803303317726768221411675734839799474188865268502868755212988825799039037410352223879151203557560276700281198966515330996911389587245609884565436159929376453614337268756674453964998747219245324505243064220777905024179597727592340656962379070818434973712889426156125903140633605255643841100086033622158148136566011596520033011460498687735805, 693),
   (162906506095069900025793343928716859176604338647504849788702572976180318051209280031028535639296733155956137276021140775110577371914296320003491118926245443303646372421543353877216413238631090492058181477315066512085673090760026845182591631868273497040505804744382379087944981084830660843507176920541679703023943882452881913488442040454487094970070248332367391032413662342414575723967031327043717084376274650025853053752, 696),
   (804758140109645306127419119007861284332425432918673957956190710502330771172973843353280966058125861790423318143544435429046252217256623820817246127495652489920013079762424168153449081398837587030767416497936428569703225068354532615202002661429271075380098675437248952694448206559063464566925453987475897732938282779317236652632903679845166249152147026761894911700123491971528004076397134755595962396818796771127714085533, 698),
   (398355279354274426533072463908891335744550589294743609188314401698653731730622052459874078198772301586259542481054495537377894847542028791304536833110347982510406474482399963235957295292424605580229871166478532142003096408835493644524991317407489182313148844341438231583751862246736414960628099723800569377804449975762032143053287321523357293330312778247137981291561128525906362017816581704020001386425304401708218472339, 701),
   (197584218559720115560403942098810102529297092290192830157403943242532250938388538020097542786591061586784733070603029786539435844380846280487050269222732599325161611343270381765034818465042604367794016098573351942433535818782404847684395693434114634427321826793353362865540923674381261820471537463005082411391007187977967942954430511475585217491835138010580438720614319748849555560837024525193920687666950983247276362280, 704),
   (981993566241808974335207592231086209570606548682258365882297597915385287163791033959884787649357576086320123360897058039100996146572806014020639838036981018646053208376053797372223047771261743707936260009909559153894673019348552092991446596367549733103789479162966213441738390661674871247743541191135259584613305724250500676483519642033658530934420635912584780441453169151782291137360011890213785817704746386738963520532, 706),
   (489032795988420869218933380931080932366162061243764666209384203761861873007567934912022624249380072890987421433726734903472296080993257394982278639342416547285734497771274791091367077790088348366552257484934960458639547163635578942309740404991039767085687160623157174293985718549514085881376283513185359273137426250676749336888792781732761948405341476684467220659843678237587580986405285921326465337216963700596003833225, 709),
   (244027365198222013740247757084609385250714868560638568438482717677169074630776399521099289500440656372602723295429640716832675744415635440096157041031865857095581514387866120754592171817254085834909576484982545268861134034654153892212560462090528843775757893150955429972698873556207528854806765473079494277295575699087697919107507598084648212254265396865549143109261995440556202912216237674741906203271264886597405912779, 712),
   (122013682599111006870123878542304692625357434280319284219241358838584537315388199760549644750220328186301361647714820358416337872207817720048078520515932928547790757193933060377296085908627042917454788242491272634430567017327076946106280231045264421887878946575477714986349436778103764427403382736539747138647787849543848959553753799042324106127132698432774571554630997720278101456108118837370953101635632443298702956390, 715),
   (611288549821546144419320631496946510053040745744399613938399207781308531950094880800353720198603844213369821855051249995665852739761166777440873387784823972024431693541604632490253390402221485016448489094881275898497140756808655499992463957536774753658273522343143352081610678258299859781290947510064133164625417126214683287364306533202043771696934819148200603488701298578593288295101675375228475039194518540926501811512, 717),
   (306866852010416164498498957011467148046626454363688606197076402306216883038947630161777567539699129795111650571235727497824258075360105722275318440667981633956264710157885525510107201981915185478257141525630400501045564659917945060996216906683460926336453308216257962744968560485666529610208055650052194848641959397359771010256881879667425973391861279212396702951328051886453830724141041038364694469675648307545103909379, 720),
   (154354026561239330742744975376767975467453106544935368917129430360027092168590657971374116472468662286941160237331570931405601811906133178304485175655994761880001149209416419331583922596903338295563342187392091452025919023938726365681097104061780845947236014032777755260719185924290264393934651991976254008866905576871964818159211585472715264616106223443835541584518010098886276854242943642297441318246851098695187266418, 723),
   (777944293868646226943434675898910596355963656986474259342332329014536544529696916175725547021242057926183447596151117494284233132006911218654605285306213599875205792015458753431182969888392825009639244624456140918210631880651180883032729404471375463574069510725199886514024697058422932545430646039560320204689204107434702683522426390782484933665175366156931129585970770898386835345384435957179104243964129537423743822745, 725),
   (392861868403666344606434511328949851159761646778169500967877826152340954987496942668741401245727239252722641036056314334613537731663490165420575669079637867936978924967806670482747399793638376629867818535350351163696369099728846345931528349258044609104905102916225942689582472014503580935442476249977961703368048074254524855178825327345154891500913559909250220440915239303685351849419140158375447643201885416398990630486, 728),
   (198788105412255170370855862732448624686839393269753767489746180033084523223673452990383149030337983061877656364244495053314450092221726023702811288554296761176111336033710175264270184295581018574713116178887277688830362764462796251041353344724570572207081982075610327000928730839338811953333892982488848621904232325572789576720485615636648375099462261314080611543103111087664788035806084920137976507460154020697889259026, 731),
   (100785569444013371378023922405351452716227572387765160117301313276773853274402440666124256558381357412371971776671958992030426196756415094017325323297028457916288447369091058858984983437859576417379549902695849788236993921582637699277966145775357280108990564912334435789470866535544777660340283742121846251305445789065404315397286207127780726175427366486238870052353277321446047534153685054509954089282298088493829854326, 734),
   (511990692775587926600361525819185379798436067729847013395890671446011174633964398583911223316577295654849616625493551679514565079522588677608012642348904566214745312634982579003643715864326648200288113505694916924243929121639799512332068020538814982953672069754658933810512002000567470514528641409978978956631664608452253922218213932209126088971171021750093459865954648792945921473500720076910566773554074289548655659977, 736),
   (260603262622774254639584016641965358317403958474492129818508351766019687888687878879210812668137843488318454862376217804872913625476997636902478434955592424203305364131206132712854651374942263933946649774398712714440159922914657951777022622454256826323419083505121397309550609018288842491895078477679300288925517285702197246409070891494445179286326050070797571071770916235609474030011866519147478487739023813380265730928, 739),
   (132907663937614869866187848487402332741876018821990986207439259400670040823230818228397514460750300179042411979811871080485185948993268794820264001827352136343685735706915127683555872201220554606312791384943343484364481560686475555406281537451670981424943732587611912627870810599327309670866490023616443147352013815708120595668626154662167041436026285536106761246603167280160831755306051924765214028746902144823935522773, 742),
   (679158162721211985016219905770625920310986456180373939520014615537423908606709481147111298894434033914906725216838661221279300199355603541531549049337769416716234109462336302462970506948237034038258363977060485205102500775107890088126098656378038715081462473522696873528419842162562552418127764020680024482968790598268496243866679650323673581738094319089505549970142184801621850269613925335550243686896669960050310521373, 744),
   (347728979313260536328304591754560471199225065564351457034247483155161041206635254347320985033950225364432243311021394545295001702070069013264153113260937941358711864044716186861040899557497361427588282356254968425012480396855239725120562512065555822121708786443620799246550959187232026838081415178588172535280020786313470076859739980965720873849904291373826841584712798618430387338042329771801724767691095019545758986943, 747),
   (178384966387702655136420255570089521725202458634512297458568958858597614139003885480175665322416465611953740818553975401736335873161945403804510547102861163917019186254939403859713981472996146412352788848758798802031402443586737978986848568689630136748436607445577470013480642063050029767935765986615732510598650663378810149429046610235414808285000901474773169732957665691254788704415715172934284805825531745026974360302, 750),
   (916898727232791647401200113630260141667540637381393208937044448533191736674479971368102919757220633245442227807367433564924766388052399375555184212108706382533478617350388535838929864771200192559493334682620225842441408560035833211992401643064698902886964162270268195869290500204077153007189837171204865104477064409767084168065299576610032114584904633580334092427402401653049613940696775988882223901943233169438648211950, 752),
   (472202844524887698411618058519583972958783428251417502602577890994593744387357185254573003674968626121402747320794228285936254689846985678410919869235983787004741487935450095957048880357168099168139067361549416308857325408418454104176086846178319934986786543569188120872684607605099733798702766143170505528805688171030048346553629281954166539011225886293872057600112236851320551179458839634274345309500765082260903829154, 755),
   (243656667774842052380394918196105330046732248977731431342930191753210372103876307591359669896283811078643817617529821795543107419961044610060034652525767634094446607774692249513837222264298739170759758758559498815370379910743922317754860812628013086453181856481701070370305257524231462640130627329875980852863735096251504946821672709488349934129792557327637981721657914215281404408600761251285562179702394782446626375844, 758),
   (125970497239593341080664172707386455634160572721487150004294909136409762377704051024732949336378730327658853708262917868295786536119860063401037915355821866826828896219515892998653843910642448151282795278175260887546486413854607838279263040128682765696295019801039453381447818140027666184947534329545882100930551044762028057506804790805476915945102752138388836550097141649300486079246593566914635646906138102524905836311, 761),
   (652527175701093506797840414624261840184951766697303437022247629326602569116506984308116677562441823097272862208801914557772174257100875128417376401543157270162973682417092325733026911457127881423644879540947851397490799623766868602286582547866576726306808202569384368515899697965343310838028227827047669282820254411867305337885248816372370424595632256076854173329503193743376517890497354676617812650973795371079012232092, 763),
   (338661604188867530028079175189991895055989966915900483814546519620506733371467124855912555654907306187484615486368193655483758439435354191648618352400898623214583341174470917055440967046249370458871692481751934875297725004735004804586736342342753320953233457133510487259751943244013178324936650242237740357783712039759131470362444135697260250365133140903887315958012157552812412785168127077164644765855399797590007348456, 766),
   (176104034178211115614601171098795785429114782796268251583564190202663501353162904925074528940551799217492000052911460700851554388506384179657281543248467284071583337410724876868829302864049672638613280090511006135154817002462202498385102898018231726895681397709425453375071010486886852728967058125963624986047530260674748364588470950562575330189869233270021404298166321927462454648287426080125615278244807894746803821197, 769),
   (917502018068479912352072101424726042085688018368557590750369430955876842049978734659638295780274873923133320275668710251436598364118261576014436840324514550012949187909876608486600667921698794447175189271562341964156596582828075016586386098674987297126500082066106612084119964636680502717918372836270486177307632658115438979505933652431017470289218705336811516393446537242079388717577489877454455599655449131630847908436, 771),
   (478936053431746514247781636943706993968729145588387062371692842958967711550088899492331190397303484187875593183899066751249904346069732542679536030649396595106759476088955589630005548655126770701425448799755542505289743416236255158658093543508343369100033042838507651507910621540347222418753390620533193784554584247536259147302097366568991119490972164185815611557379092440365440910575449716031225823020144446711302608204, 774),
   (250483555944803426951589796121558757845645343142726433620395356867540113140696494434489212577789722230258935235179211910903699972994470119821397344029634419240835205994523773376492901946631301076845509722272148730266535806691561447978182923254863582039317281404539501738637255065601597325008023294538860349322047561461463534038996922715582355493778441869181564844509265346311125596230960201484331105439535545630011264091, 777),
   (131253383315076995722633053167696789111118159806788651217087166998591019285724963083672347390761814448655682063233907041313538785849102342786412208271528435682197647941130457249282280620034801764267047094470605934659664762706378198740567851785548516988602255455978698911045921654375236998304204206338362823044752922205806891836434387502965154278739903539451139978522855041467029812425023145577789499250316625910125902383, 780),
   (689080262404154227543823529130408142833370338985640418889707626742602851250056056189279823801499525855442330831978011966896078625707787299628664093425524287331537651690934900558731973255182709262401997245970681156963240004208485543387981221874129714190161841143888169282991088685469994241097072083276404820984952841580486182141280534390567059963384493582118484887244988967701906515231371514283394871064162286028160987513, 782),
   (362456218024585123688051176322594683130352798306446860335986211666609099757529485555561187319588750599962666017620434294587337357122296119604677313141825775136388804789431757693893017932226105072023450551380578288562664242213663395822078122705792229664025128441685177042853312648557216970817059915803388935838085194671335731806313561089438273540740243624194323050690864197011202827011701416513065702179749362450812679432, 785),
   (191014426898956360183602969922007398009695924707497495397064733548302995572218038887780745717423271566180324991285968873247526787203450055031664944025742183496876900124030536304681620450283157372956358440577564758072524055646600609598235170665952505032941242688768088301583695765789653343620590575628385969186670897591793930661927246694133970155970108389950408247714085431824903889835166646502385625048727914011578282061, 788),
   (100855617402648958176942368118819906149119448245558677569650179313503981662131124532748233738799487386943211595398991565074694143643421629056719090445591872886351003265488123168871895597749507092920957256624954192262292701381405121867868170111622922657392976139669550623236191364336936965431671823931787791730562233928467195389497586254502736242352217229893815554793037108003549253832967989353259610025728338598113332928, 791),
   (533526216060012988756025127348557303528841881219005404343449448568436062992673648778238156478249288276929589339660665379245132019873700417710043988457181007568796807274432171563332327712094892521551863887546007677067528390307633094681022619890485260857608843778851922796919452317342396547133543948599157418254674217481591463610442231286319474722043229146138284284855166301338775552776400663678743337036102911184019531189, 793),
   (282768894511806884040693317494735370870286197046072864302028207741271113386117033852466222933472122786772682350020152650999919970533061221386323313882305934011462307855449050928566133687410293036422487860399384068845790046863045540180941988541957188254532687202791519082367309728191470169980778292757553431674977335265243475713534382581749321602682911447453290670973238139709551042971492351749733968629134542927530351530, 796),
   (150150282985769455425608151589704481932121970631464690944376978310614961208028144975659564377673697199776294327860701057680957504353055508556137679671504450960086485471243446043068616988014865602340341053872072940557114514884277181836080195915779266963156856904682296632737041465669670660259793273454260872219412965025844285603886757150908889771024625978597697346286789452185771603817862438779108737342070442294518616663, 799),
   (798799505484293502864235366457227843878888883759392155824085524612471593626709731270508882489224069102809885824218929626862693923158255305518652455852403679107660102707015132949125042376239085004450614406599428043763849219184354607367946642271945700243994478732909818086161060597362647912582100214776667840207276973937491599412677548042835293581851010206139749882245719885628304932311028174304858482659814753006839040645, 801),
   (425760136423128437026637450321702440787447775043756019054237584618447359403036286767181234366756428831797669144308689491117815861043350077841441758969331160964382834742839065861883647586535432307372177478717495147326131633825261005727115560330947058230049057164640933039923845298394291337406259414475963958830478627108683022486957133106831211479126588439872486687236968699039886528921778016904489571257681263352645208664, 804),
   (227355912849950585372224398471789103380497111873365714174962870186250889921221377133674779151847932996179955323060840188256913669797148941567329899289622839954980433752676061170245867811209920852136742773635142408672154292462689377058279709216725729094846196525918258243319333389342551574174942527330164754015475586876036734008035109079047866929853598226891907890984541285287299406444229461026997431051601794630312541426, 807),
   (121635413374723563174140053182407170308565954852250657083605135549644226107853436766516006846238644152956276097837549500717448813341474683738521496119948219375914532057681692726081539278997307655893157383894801188639602546467538816726179644430948265065742715141366268160175843363298265092183594252121638143398279438978679652694298783357290608807471675051387170721676729587628705182447662761649443625612606960127217209663, 810),
   (651965815688518298613390685057702432853913518008063521968123526546093051938094421068525796695839132659845639884409265323845525639510304304838475219202922455854901891829173873011797050535425569035587323577676134371108269649066008057652322894149882700752380953157723197338542520427278700894104065191371980448614777792925722938441441478795077663208048178275435235068187270589689859777919472402441017833283573306281884243794, 812),
   (350105643024734326355390797875986206442551559170330111296882333755251968890756704113798352825665614238337108617927775478905047268417033411698261192711969358794082315912266369807335016137523530572110392761212084157285140801548446326959297394158487010304028571845697356970797333469448662380133883007766753500906135674801113217943054074112956705142721871733908721231616564306663454700742756680110826576473278865473371838918, 815),
   (188356835947307067579200249257280579066092738833637599877722695560325559263227106813223513820208100460225364436445143207650915430408363975493664521679039515031216285960799306956346238681987659447795391305532101276619405751233064123904101998057266011543567371652985178050288965406563380360512029058178513383487500993042998911253363091872770707366784366992842892022609711596984938628999603093899624698142624029624674049338, 818),
   (101524334575598509425188934349674232116623986231330666334092532907015476442879410572327473949092166148061471431243932188923843416990108182791085177185002298601825578132870826449470622649591348442361715913681802588097859699914621562784310976952866380221982813320959010969105752354137662014315983662358218713699763035250176413165562706519423411270696773809142318800186634550774881921030786067611897712298874351967699312593, 821),
   (548231406708231950896020245488240853429769525649185598204099677697883572791548817090568359325097697199531945728717233820188754451746584187071859956799012412449858121917502462827141362307793281588753265933881733975728442379538956439035279275545478453198707191933178659233171062712343374877306311776734381053978720390350952631094038615204886420861762578569368521521007826574184362373566244765104247646413921500625576288002, 823),
   (296593191029153485434746952809138301705505313376209408628417925634555012880227910045997482394877854184946782639236023496722116158394902045205876236628265715135373243957368832389483477008516165339515516870230018080869087327330575433518086088070103843180500590835849654645145544927377765808622714671213300150202487731179865373421874890825843553686213555006028370142865234176633740044099338417921397976709931531838436771809, 826),
   (160753509537801189105632848422552959524383879849905499476602515693928816981083527244930635458023796968241156190465924735223386957850036908501584920252520017603372298224893907155100044538615761614017410143664669799831045331413171884966802659733996283003831320233030512817668885350638749068273511351797608681409748350299487032394656190827607206097927746813267376617432956923735487103901841422513397703376782890256432730321, 829),
   (872891556790260456843586366934462570217404467584986862157951660218033476207283552939973350537069217537549478114229971312262991181125700413163606116971183695586311579361173915852193241844683585564114537080099157013082576149573523335369738442355599816710804068865355684599942047453968407440725166640261015140054933542126214585902983116193907129111747665196041855032660956095883694974186998924247749529335931094092429725641, 831),
   (474853006893901688522910983612347638198268030366232853013925703158610211056762252799345502692165654340426916094141104393871067202532381024761001727632323930398953499172478610223593123563507870546878308171573941415116921425367996694441137712641446300290677413462753492422368473814958813647754490652301992236189883846916660734731222815209485478236790729866646769137767560116160730065957727414790775743958746515186281770749, 834),
   (258794888757176420244986486068729462818056076549596904892589508221442565025935427775643298967230281615532669271306901894659731625380147658494745941559616542067429657049000842571858252342111789448048677953507798071238722176825558198470420053389588233658419190337200653370190818229152553438026197405504585768723486696569580100428516434289169585639050947777322489180083320263307597885946961441060972780457516850776523565058, 837),
   (141302009261418325453762621393526286698658617796079910071353871488907640504160743565501241236107733762080837422133568434484213467457560621538131284091550631968816592748754460044234605778793037038634578162615257746896342308546754776364849349150715175577496877924111556740124186753117294177162303783405503829723023736326990734833969973121886593758921817486418079092325492863765948445727040946819291138129804200523981866522, 840),
   (772921990659958240232081539022588788241662639344557108090305677044324793557759267303291789561509303678582180699070619336628647666992856599813578123980781956869426762335686896441963293609997912601331142549505459875522992427750748626715725939854412010408907922244890215368479301539551599149077801695228105948584939837708639319541815752976719667861302341650706892635020445964799737998126913979101522525570028976866180809873, 842),
   (423561250881657115647180683384378655956431126360817295233487511020289986869652078482203900679707098415863035023090699396472498921512085416697840811941468512364445865759956419250195884898278856105529466117128992011786599850407410247440217815040217781704081541390199838021926657243674276333694635328985002059824547031064334347108915032631242377987993683224587377163991204388710256422973548860547634344012375879322667083811, 845),
   (232535126734029756490302195178023882120080688372088695083184643550139202791438991086729941473159197030308806227676793968663401907910134893767114605755866213288080780302216074168357540809155092001935676898303816614470843317873668225844679580457079562155540766223219711074037734826777177707198354795612766130843676320054319556562794352914552065515408532090298470063031171209401930776212478324440651254862794357748144229012, 848),
   (127894319703716366069666207347913135166044378604648782295751553952576561535291445097701467810237558366669843425222236682764871049350574191571913033165726417308444429166218840792596647445035300601064622294067099137958963824830517524214573769251393759185547421422770841090720754154727447738959095137587021371964021976029875756109536894103003636033474692649664158534667144165171061926916863078442358190174536896761479325957, 851),
   (704697701567477177043860802487001374764904526111614790449591062278696854059455862488335087634408946600350837272974524122034439481921663795561240812743152559369528804705865812767207527422144506311866068840309716250153890674816151558422301468575179613112366292039467334409871355392548237041664614208104487759521761087924615416163548286507550034544445556499649513526015964350092551217311915562217393627861698301155751086021, 853),
   (388993131265247401728211162972824758870227298413611364328174266377840663440819636093560968374193738523393662174681937315363010594020758415149804928634220212771979900197637928647498555137023767484150069999850963370084947652498515660249110410653499146438026193205785968594248988176686626846998867042873677243256012120534387709722278654152167619068533947187806531466360812321251088271956177390344001282579657462237974599484, 856),
   (215113201589681813155700773123972091655235696022727084473480369306945886882773258759739215510929137403436695182599111335395744858493479403577842125534723777662904884809293774542066700990774143418734988709917582743656976051831679160117758057091385027980228484842799640632619690461707704646390373474709143515520574702655516403476420095746148693344899272794857011900897529213651851814391766096860232709266550576617599953514, 859),
   (119172713680683724488258228310680538777000575596590804798308124596048021333056385352895525393054742121503929131159907679809242651605387589582124537546236972825249306184348751096304952348888875453979183745294340839985964732714750254705237963628627305501046580602911000910471308515786068374100266904988865507598398385271156087525936733043366376113074197128350784593097231184363125905173038417660568920933669019446150374247, 862),
   (661408560927794670909833167124276990212353194561078966630610091508066518398462938708570165931453818774346806677937487622941296716409901122180791183381615199180133649323135568584492485536333258769584469786383591661922104266566863913614070698138881545530808522346156055053115762262612679476256481322688203567171111038254916285768948868390683387427561794062346854491689633073215348773710363218016157511181863057926134577071, 864),
   (367743159875853837025867240921098006558068376175959905446619210878484984229545393921965012257888323238536824512933243118355360974323905023932519897960178050744154309023663376132977821958201291875888965201229276964028689972211176335969423308165218139315129538424462766609532363818012649788798603615414641183347137737269733454887535570825219963409724357498664851097379435988707733918182961949216983576217115860206930824851, 867),
   (204832940050850587223408053193051589652844085530009667333766900459316136215856784414534511827643796043865011253703816416923936062698415098330413583163819174264493950126180500506068646830718119574870153617084707268963980314521625219134968782648026503598527152902425761001509526646633045932360822213785955139124355719659241534372357312949647519619216467126756322061240345845710207792427909805713859851952933534135260469442, 870),
   (114296780548374627670661693681722787026286999725745394372241930456298404008448085703310257599825238192476676279566729560643556322985715624868370779405411099239587624170408719282386304931540710722777545718333266656081901015503066872277312580717598789007978151319553574638842315868821239630257338795292562967631390491569856776179775380625903315947522788656730027710172112981906295948174773671588333797389736912047475341949, 873),
   (638919003265414168678998867680830379476944328466916754540832391250708078407224799081504339983023081495944620402778018243997479845490150343014192656876248044749294819112584740788539444567312572940326480565482960607497826676662143816030177326211377230554597865876304482231128545706710729533138523865685426989059472847875499378844944377698799536146652388591120854899862111568856194350296984824178785927408629338345387161493, 875),
   (357794641828631934460239365901265012507088823941473382542866139100396523908045887485642430390492925637728987425555690216638588713474484192087947887850698905059605098703047454841582088957695040846582829116670457940198782938930800536976899302678371249110574804890730510049431985595758008538557573364783839113873304794810279652153168851511327740242125337611027678743922782478559468836166311501540120119348832429473416810436, 878),
   (200722794065862515232194284270609672016476830231166567606547904035322449912413742879445403449066531282765961945736742211534248268259185631761338765084242085738438460372409622166127551905266917914932967134452126904451517228740179101244040508802566270751032465543699816137731343919220242790130798657643733742882923989888566884857927725697854862275832314399786527775340680970471862017089300752364007386954694992934586830655, 881),
   (112806210265014733560493187760082635673259978589915610994879922067851216850776523498248316738375390580914470613504049122882247526761662325049872385977344052185002414729294207657363684170760007868192327529562095320301752682551980654899150765947042244162080245635559296669405015282601776448053508845595778363500203282317374589290155381842194432599017760692680028609741462705405186453604187022828572151468538586029237798828, 884),
   (635098963792032949945576647089265238840453679461224889901173961242002350869871827295138023237053448970548469554027796561827053575668158890030781533052447013801563594925926389110957541881378844297922803991434596653298867602767651087082218812281847834632511782928198840248750236041048001402541254800704232186506144479446818937703574799771554655532469992699788561072844435031431199733791572938524861212767872239344608807402, 886),
   (358195815578706583769305228958345594706015875216130837904262114140489325890607710594457845105698145219389336828471677260870458216676841613977360784641580115784081867538222483458580053621097668184028461451169112512460561327960955213114371410126962178732736645571504145900295133127151072791033267707597186953189465486408005880864816187071156825720313075882680748445084261357727196649858447137328021724001079942990359367374, 889),
   (202380635801969219829657454361465261008898969497113923415908094489376469128193356485868682484719452048954975308086497652391808892422415511897208843322492765418006255159095703154097730295920182523976080719910548569540217150297939695409619846721733630983996204747899842433666750216840356126933796254792410628552047999820523322688621145695203606531976887873714622871472607667115866107170022632590332274060610167789553042567, 892),
   (114547439863914578423586119168589337731036816735366480653403981480987081526557439771001674286351209859708516024376957671253763833111087179733820205320530905226591540420048167985219315347490823308570461687469370490359762907068633867601844833244501235136941851887311310817455380622731641567844528680212504415760459167898416200641759568463485241297098918536522476545253495939587580216658232810046128067118305354968887022093, 895),
   (649483984028395659661733295685901544934978750889527945304800574997196752255580683501579493203611359904547285858217349996008840933739864309090760564167410232634774034181673112476193518020272968159594517767951330680339855683079154029302460204496322003226460300201055132334972008130888407689678477616804900037361803481984019857638776753187961318154550868102082442011587321977461579828452180032961546140560791362673589415266, 897),
   (368906902928128734687864511949592077523067930505251872933126726598407755281169828228897152139651252425782858367467454797733021650364242927563552000447089012136551651415190327886477918235515045914649686092196355826433038027988959488643797396153910897832629450514199315166264100618344615567737375286345183221221504377766923279138825195810762028711784893081982827062581598883198177342560838258722158207838529493998598787871, 900),
   (209908027766105250037394907299317892110625652457488315698949107434494012754985632262242479567461562630270446411088981779910089319057254225783661088254393647905697889655243296567405935476008061125435671386459726465240398637925717949038320718411575300866766157342579410329604273251838086258042566537930409252875035990949379345829991536416323594337005604163648228598608929764539762907917116969212908020260123282085202710299, 903),
   (119647575826679992521315097160611198503056621900768339948400991237661587270341810389478213353453090699254154454320719614548750911862634908696686820305004379306247797103488679043421383221324594841498332690282044085187027223617659230951842809494597921494056709685270263887874435753547709167084262926620333274138770514841146227123095175757304448772093194373279490301207089965787664857512756672451357571548270270788565544870, 906),
   (683187657970342757296709204787089943452453311053387221105369659967047663313651737323920598248217147892741221934171308999073367706735645328658081743941575005838674921460920357337936098193763436544955479661510471726417925446856834208735022442214154131731063812302893206799763028152757419344051141311002102995332379639742944956872873453574208402488652139871425889619892483704647566336397840599697251733540623246202709261209, 908),
   (390783340359036057173717665138215447654803293922537490472271445501151263415408793749282582197980208594647978946345988747469966328252789127992422757534580903339722055075646444397299448166832685703714534366383989827511053355602109167396432836946496163350168500637254914289464452103377243864797252829893202913330121153932964515331283615444447206223509024006455608862578500679058407944419564823026827991585236496827949697411, 911),
   (223918854025727660760540222124197451506202287417613982040611538272159673937029238818338919599442659524733291936256251552300290706088848170339658240067314857613660737558345412639652583799595128908228428191938026171163833572760008552918156015570342301599646550865147065887863131055235160734528825871528805269338159421203588667284825511649668249166070670755699063878257480889100467752152410643594372439178340512682415176617, 914),
   (128529422210767677276550087499289337164560112977710425691311022968219652839854783081726539850080086567196909571411088391020366865294998849774963829798638728270241263358490266855160583100967603993323117782172427022248040470764244909375021552937376481118197120196594415819633437225704982261619546050257534224600103507770859895021489843686909575021324565013771262666119794030343668489735483709423169780088367454279706311378, 917),
   (739044177711914144340163003120913688696220649621834947725038382067263003829165002719927604137960497761382230035613758248367109475446243386206042021342172687553887264311319034417173352830563722961607927247491455377926232706894408228906373929389914766429633441130417890962892264047803648004312389788980821791450595169682444396373566601199730056372616248829184760330188815674476093815979031329183226235508112862108311290423, 919),
   (425689446362062547139933889797646284689023094182176929889622108070743490205599041566678299983465246710556164500513524751059455057857036190454680204293091468031039064243319763824291851230404704425886166094555078297685510039171179139850071383328590905463468862091120705194625944091534901250483936518452953351875542817737087972311174362291044512470626959325610421950188757828498230038003922045609538311652673008574387303284, 922),
   (245622810550910089699741854413241906265566325343116088546311956356818993848630646983973379090459447351990906916796303781361305568383509881892350477877113777053909540068395503726616398159943514453736317836558280177764539292601770363693491188180596952452421533426576646897299169740815638021529231371147354084032188205834299760023547607041932683695551755530877213465258913267043478731928263020316703605823592325947421473995, 925),
   (141969984498426031846450791850853821821497336048321099179768310774241378444508513956736613114285560569450744197908263585626834618525668711733778576212971763137159714159532601153984278136447351354259591709530685942747903711123823270214837906768385038517499646320561301906638920110191438776443895732523170660570604782972225261293610516870237091176028914696847029382919651868351130707054536025743054684166036364397609611969, 928),
   (822006210245886724390950084816443628346469575719779164250858519382857581193704295809504989931713395697119808905888846160779372441263621840938577956273106508564154744983693760681568970410030164341163035998182671608510362487406936734543911480188949373016322952196049938039439347438008430515610156291309158124703801693409184262890004892678672757909207416094744300127104784317753046793845763589052286621321350549862159653300, 930),
   (476763601942614300146751049193537304440952353917471915265497941242057397092348491569512894160393769504329489165415530773252036015932900667744375214638401774967209752090542381195310002837817495317874560878945949532936010242696023306035468658509590636349467312273708964062874821514044889699053890648959311712328204982177326872476202837753630199587340301334951694073720774904296767140430542881650326240366383318920052598914, 933),
   (276999652728658908385262359581445173880193317626051182769254303861635347710654473601886991507188780082015433205106423379259432925257015287959481999704911431255948865964605123474475111648771964779685119870667596678635821951006389540806607290594072159719040508431024908120530271299660080915150310467045360104862687094645026912908673848734859145960244715075606934256831770219396421708590145414238839545652868708292550559969, 936),
   (161213797888079484680222693276401091198272510858361788371706004847471772367600903636298229057183870007732982125371938406728989962499582897592418523828258452990962239991400181862144514979585283501776739764728541266966048375485718712749445443125749996956481575906856496526148617896402167092617480691820399581030083889083405663312848179963688022948862424174003235737476090267688717434399464631087004615569969588226264425902, 939),
   (939876441687503395685698301801418361685928738304249226207046008260760432903113268199618675403381962145083285790918400911230011481372568292963799993918746780937309859149863060256302522330982202815358392828367395586412062029081740095329266933423122482256287587536973374747446442336024634149959912433312929557405389073356255017113904889188301173791867932934438864349485606260625222642548878799237236908772922699359121603009, 941),
   (548887841945501983080447808252028323224582383169681548104914868824284092815418148628577306435575065892728638901896346132158326705121579883090859196448548120067388957743520027189680673041293606444169301411766559022464644224983736215672291889119103529637671951121592450852508722324238386343576588861054750861524747218840052929994520455285967885494450872833712296780099594056205130023248545218754546354723386856425727016157, 944),
   (321099387538118660102061967827436569086380694154263705641375198262206194297019616947717724264811413547246253757609362487312621122496124231608152629922400650239422540279959215905963193729156759769839041325883437028141816871615485686168290755134675564838038091406131583748717602559679456010992304483717029253991977123021430964046794466342291213014253760607721693616358262522880001063600398952971409617513181311009050304452, 947),
   (188164241097337534819808313146877829484619086774398531505845866181652829858053495531362586419179488338686304701959086417565195977782728799722377441134526781040301608604056100520894431525285861225125678216967694098491104686766674612094618382508919880995090321563993108076748515099972161222441490427458179142839298594090558544931421557276582650826352703716124912459185941838407680623269833786441246035862724248251303478409, 950),
   (110452409524137132939227479817217285907471403936571937993931523448630211126677401876909838228058359654808860860049983727110770038958461805437035557945967220470657044250580931005765031305342800539148773113360036435814278451132037997299540990532735970144118018758063954441051378363683658637573154880917951156846668274731157865874744454121354016035069037081365323613542147859145308525859392432641011423051419133723515141826, 953),
   (649460168001926341682657581325237641135931855147042995404317357877945641424863123036229848780983154770276101857093904315411327829075755415969769080722287256367463420193415874313898384075415667170194785906557014242587957292656383424121301024332487504447413950297416052113382104778459912788930150699797552802258409455419208251343497390233561614286205938038428102847627829411774414132053227503929147167542344506294269033937, 955),
   (382532038953134615251085315400564970629063862681608324293142923790109982799244379468339380931999078159692623993828309641777272091325619940006193988545427194000435954493921949970886148220419827963244728898962081388884306845374609836807446303331835140119526816725178054694782059714512888632679858762180758600530203169241913660041319962847567790814575297504634152577252791523535129923779350999814267681682440914207324460989, 958),
   (225693902982349422998140336086333332671147678982148911332954325036164889851554183886320234749879456114218648156358702688648590533882115764603654453241802044460257213151413950482822827450047698498314390050387628019441741038771019803716393318965782732670520821867855052269921415231562604293281116669686647574312819869852729059424378778080064996580599425527734150020579146998885726655029817089890417932192640139382321431983, 961),
   (133385096662568508991900938627022999608648278278450006597776006096373449902268522676815258737178758563503221060407993288991317005524330416880759781865905008276012012972485644735348291022978189812503804519779088159490068953913672703996388451508777595008277805723902335891523556401853499137329139951784808716418876543082962874119807857845318412979134260486890882662162275876341464453122621900125236997925850322374951966302, 964),
   (789639772242405573232053556671976157683197807408424039058833956090530823421429654246746331724098250695939068677615320270828596672704036067934097908646157648993991116797115016833261882856030883690022522757092201904181208207168942407658619632931963362449004609885501828477819453898972714892988508514566067601199749135051140214789262518444285004836474822082394025360000673187941469562485921648741403027721033908459715640509, 966),
   (468256384939746504926607759106481861506136299793195455161888535961684778288907784968320574712390262662691867725825884920601357826913493388284920059827171485853436732260689204982124296533626314028183355994955675729179456466851182847741561442328654273932259733662102584287346936162090819931542185549137678087511451237085326147370032673437461007868029569494859657038480399200449291450554151537703651995438573107716611374822, 969),
   (278144292654209423926405008909250225734644962077158100366161790361240758303611224271182421379159816021638969429140575642837206549186615072641242515537339862596941418962849387759381832140974030532740913461003671383132597141309602611558487496743220638715762281795288935066684080080281947039336058216187780783981802034828683731537799408021851838673609564279946636280857357125066879121629166013395969285290512425983667156644, 972),
   (165495854129254607236210980301003884312113752435909069717866265264938251190648678441353540720600090532875186810338642507488137896766035968221539296744717218245180144282895385716832190123879548166980843509297184472963895299079213553877300060562216280035878557668196916364677027647767758488404954638631729566469172210723066820264990647773001844010797690746568248587110127489414793077369353777970601724747854893460281958203, 975),
   (986355290610357459127817442593983150500197964518018055518482940979031977096266123510467102694776539575936113389618309344629301864725574370600374208598514620741273659926056498872319853138322107075205827315411219458864815982512112781108708360950809029013836203702453621533475084780695840590893529646245108216156266375909478248779344260727090990304354236849546761579176359836912166741121348516704786279497215165023280470892, 977),
   (588854108494383403099307013228607940848618184817256779144534315764482090326470875735748860308781594126833859693602130678743693213241167899248423402533313228582540374975855729826774952323578297923897878907300498016942295141559731330321898891487632990321260213610364812055484625614075416832763437198808329605045291026417958514521268523654073321211699479399179416662768286822636563544449445064472757408859837453518898441122, 980),
   (352134756879641275053385593910707548627473674520719553928431520827160290015229583689977818464651393287846648096774074145888728541518218403750557194714921310692359144235561726436411421489499822158490931586565697814131492494652719335532495537109604528212113607738998157609179806117217099265992535444887381103817084033797939191683718577145135846084596288680709291164335435519936664999580768148554708930498182797204301267791, 983),
   (210928719370905123756977970752513821627856731037911012803130480975469013719122520630296713260326184579420142209967670413387348396369412823846583759634237865104723127397101474135410441472210393472936068020352852990664764004296978881983964826728653112399056051035659896407898703864213042460329528731487541281186433336244965575818547427709936371804673176919744865407436925876442062334748880120984270649368411495525376459407, 986),
   (126557231622543074254186782451508292976714038622746607681878288585281408231473512378178027956195710747652085325980602248032409037821647694307950255780542719062833876438260884481246264883326236083761640812211711794398858402578187329190378896037191867439433630621395937844739222318527825476197717238892524768711860001746979345491128456625961823082803906151846919244462155525865237400849328072590562389621046897315225875644, 989),
   (760608962051483876267662562533564840790051372122707112168088514397541263471155809392849948016736221593389032809143419510674778317308102642790781037241061741567631597393947915732290051948790678863407461281392387884337138999494905848434177165183523123310996120034589586446882726134352231111948280605744073859958278610499345866401682024322030556727651475972599984659217554710450076779104461716269279961622491852864507512621, 991),
   (457886595154993293513132862645206034155610926017869681525189285667319840609635797254495668706075205399220197751104338545426216547019477790960050184419119168423714221631156645270838611273171988675771291691398217506370957677695933320757374653440480920233219664260822931041023401132880043129392864924657932463694883723520606211573812578641862395150046188535505190764848967935690946221020885953194106536896740095424433522598, 994),
   (276105616878460955988419116175059238595833388388775417959689139257393863887610385744460888229763348855729779243915916142892008577852745107948910261204728858559499675643587457098315682597722709171490088889913125156341687479650647792416696916024609994900631457549276227417737110883126666007023897549568733275608014885282925545579008984921043024275477851686909630031203927665221640571275594229776046241748734277540933414127, 997),
   (166767792594590417417005146169735780111883366586820352447652240111465893788116672989654376490777062708860786663325213350306773181023058045201141797767656230569937804088726824087382672289024516339580013689507527594430379237708991266619684937278864436919981400359762841360313214973408506268242434119939514898467240990710887029529721426892309986662388622418893416538847172309793870905050458914784731930016235503634723782132, 1000),
   (100894514519727202537288113432690146967689436785026313230829605267436865741810587158740897776920122938860775931311754076935597774518950117346690787649432019494812371473679728572866516734859832385445908282152054194630379438813939716304909387053712984336588747217656519022989495058912146292286672642563406513572680799380086652865481463269847541930745116563430517006002539247425291897555527643444762817659822479699007888190, 1003),
   (611420757989546847375965967402102290624197986917259458178827407920667406395372158181969840528135945009496302143749229706229722513584837711120946173155558038138562971130499155151571091413250584255802204189841448419460099399212474680807750885545500685079727808138998505279316340057007606531257236213934243472250445644243325116364817667415276104100315406374388933056375387839397268899186497519275262675018524226975987802432, 1005),
   (371132400099654936357211342213076090408888178058776491114548236607845115681990900016455693200578518620764255401255782431681441565745996490650414327105423729150107723476212987177003652487843104643271937943233759190612280335321972131250304787526118915843394779540372092704545018414603617164473142381858085787656020506055698345633444324121072595188891451669254082365219860418514142221806203994200084443736244205774424596076, 1008),
   (225648499260590201305184496065550262968604012259736106597645327857569830334650467210005061465951739321424667283963515718462316471973565866315451910880097627323265495873537496203618220712608607623109338269486125587892266443875759055800185310815880300832784025960546232364363371196078999235999670568169716158894860467681864594145134149065612137874846002614906482078053675134456598470858172028473651341791636477110850154414, 1011),
   (137419936049699432594857358103920110147879843466179288917966004665260026673802134530893082432764609246747622375933781072543550731431901612586110213725979455039868686986984335188003496413978642042473587006117050483026390264320337264982312854286871103207165471809972655509897293058412110534723799376015357140766970024818255537834386696780957791965781215592478047585534688156884068468752626765340453667151106614560507744038, 1014),
   (838261609903166538828629884433912671902067045143693662399592628458086162710193020638447802839864116405160496493196064542515659461734599836775272303728474675743198990620604444646821328125269716459088880737314007946460980612354057316392108411149913729563709378040833198610373487656313874261815176193693678558678517151391358780789758850363842530991265415114116090271761597756992817659391023268576767369621750348819097238634, 1016),
   (512177843650834755224292859389120642532162964582796827726151095987890645415927935610091607535156975123553063357342795435477067931119840500269691377578098026879094583269189315679207831484539796756503306130498858855287659154148329020315578239212597288763426429982949084350938200958007777173969072654346837599352573979500120215062542657572307786435663168634724931156046336229522611589887915217100404862838889463128468412805, 1019),
   (313452840314310870197267229946141833229683734324671658568404470744589074994547896593376063811516068775614474774693790806511965573845342386165051123077795992450005884960743861195675192868538355614980023351865301619436047402338777360433133882398109540723216975149564839622774178986300759630469072464460264610803775275454073571618276106434252365298625859204451657867500357772467838293011404112865447776057400351434622668637, 1022),
   (192146591112672563430924811956984943769796129141023726702431940566433102971657860611739527116459350159451673036887293764391834896767194882719176338446688943371853607480935986912948893228414011991982754314693429892714297057633670521945511069910041148463332005766683246688760571718602365653477541420714142206422714243853347099402003253244196699928057651692328866272777719314522784873615990721186519486723186415429423695874, 1025),
   (117978006943180953946587834541588755474654823292588568195293211507789925224597926415608069649506040997903327244648798371336586626615057657989574271806267011230318114993294695964550620442246203363077411149221765954126578393387073700474543796924765265156485851540743513466898991035221852511235210432318483314743546545725955119032829997491936773755827398139089923891485519659116989912400218302808522964848036459073666149267, 1028),
   (725564742700562866771515182430770846169127163249419694401053250772908040131277247455989628344462152137105462554590109983720007753682604596635881771608542119066456407208762380181986315719814150682926078567713860617878457119330503257918444351087306380712387986975572607821428794866614392944096544158758672385672811256214623982051904484575411158598338498555403031932635945903569487961261342562272416233815424223303046817991, 1030),
   (446947881503546725931253352377354841240182332561642531751048802476111352720866784432889611060188685716456964933627507749971524776268484431527703171310861945344937146840597626192103570483405516820682464397711738140613129585507590006877761720269780730518830999976952726418000137637834466053563471201795342189574451733828208372943973162498453273696576515110128267670503742676598804584136987018359808400030301321554676839883, 1033),
   (275766842887688329899583318416827937045192499190533442090397111127760704628774805995092890024136419087053947364048172281732430786957654894252592856698801820277826219600648735360527902988261203878361080533388142432758300954258183034243578981406454710730118726985779832199906084922543865555048661731507726130967436719772004566106431441261545669870787709822949141152700809231461462428412520990328001782818695915399235610208, 1036),
   (170423908904591387877942490781599665093928964499749667211865414676956115460582830104967406034916306995799339470981770470110642226339830724648102385439859524931696603713200918452806244046745423996827147769633872023444629989731557115162531810509189011231213373277211936299541960482132108913020072950071774748937875892819098821853774630699635223980146804670582569232369100105043183780758937972022705101781954075716727607108, 1039),
   (105492399611942069096446401793810192693142029025345044004144691685035835470100771834974824335613194030399791132537715920998487538104355218557175376587273045932720197698471368522287065064935417454036004469403366782512225963643833854285607190705187997952121078058594188569416473538439775417159425156094428569592545177655022170727486496403074203643710872091090610354836472965021730760289782604682054458003029572868654388800, 1042),
   (654052877594040828397967691121623194697480579957139272825697088447222179914624785376843910880801802988478705021733838710190622736247002355054487334841092884782865225730522484838179803402599588215023227710300874051575800974591769896570764582372165587303150683963283969130382135938326607586388435967785457131473780101461137458510416277699060062591007406964761784199986132383134730713796652149028737639618783351785657210560, 1044),
   (406166836985899354435137936186528003907135440153383488424757891925724973726981991719020068656977919655845275818496713839028376719209388462488836634936318681450159305178654463084509657913014344281529424408096842786028572405221489105770444805653114829715256574741199344829967306417700823311147218735994768878645217443007366361734968508451116298869015599725117067988191388209926667773267720984546846074203264461458893127758, 1047),
   (252635772605229398458655796308020418430238243775404529800199408777800933658182798849230482704640266025935761559104956007875650319348239623668056386930390219861999087821123076038565007221894922143111301981836236212909772036047766223789216669116237424082889589489025992484239664591809912099533570053788746242517325249550581876999150412256594337896527703029022816288655043466574387354972522452388138258154430495027431525465, 1050),
   (157392086333057915239742561099896720682038425872077022065524231668569981669047883683070590724990885734157979451322387592906530148953953285545199129057633106974025431712559676372025999499240536495158341134683975160642787978457758357420681984859415915203640214251663193317681311040697575238009414143510388909088293630470012509370470706835858272509536758987081214547832092079675843322147881487837810134830210198402089840365, 1053),
   (982126618718281391095993581263355537055919777441760617688871205611876685614858794182360486123943126981145791776251698579736748129472668501802042565319630587517918693886372380561442236875260947729788048680428005002410996985576412150305055585522755310870714936930378326302331380893952869485178744255504826792710952254132878058471737210655755620459509376079386778778472254577177262330202780484107935241340511638029040603877, 1055),
   (613829136698925869434995988289597210659949860901100386055544503507422928509286746363975303827464454363216119860157311612335467580920417813626276603324769117198699183678982737850901398047038092331117530425267503126506873115985257593940659740951722069294196835581486453938957113058720543428236715159690516745444345158833048786544835756659847262787193360049616736736545159110735788956376737802567459525837819773768150377423, 1058),
   (384257039573527594266307488669287853873128612924088841670770859195646753246813503223848540195992748431373291032458477069322002705656181551330049153681305467366385688983043193894664275177445845799279574046217456957193302570606771253806852997835778015378167219074010520165787152774759060186076183689966263482648160069429488540377067183669064386504783043391060077197077269603320603886691837864407229663174475178378862136267, 1061),
   (240929163812601801604974795395643484378451640303403703727573328715670514285752066521353034702887453266471053477351465122464895696446425832683940819358178528038723826992368082571954500536258545316148292926978345512160200711770445576136896829643032815642110846359404596143948544789773930736669767173608847203620396363532289314816421124160503370338498968206194668402567448041282018636955782340983332998810395936843546559439, 1064),
   (151303514874313931407924171508464108189667630110537525940916050433441082971452297775409705793413320651343821583776720096907954497368355422925514834556936115608318563351207155855187426336770366458541127958142400981636606046991839821813971209015824608223245611513706086378399686127978028502628613785026356043873608916298277689704712465972796116572577352033490251756812357369925107704008231310137533123252928648337747239328, 1067),
   (951699108559434628555843038788239240513009393395281038168361957226344411890434953007327049440569786896952637761955569409551033788446955610201488309363128167176323763479093010329128911658285605024223694856715702174494252035578672479209878904709536785724214896421211283320134025744981799281533980707815779515965000083516166668242641410968887573241511544290653683550349727856828927458211774940765083345260921198044430135373, 1069),
   (599570438392443815990181114436590721523195917839027054046068033052596979490974020394616041147558965745080161790032008728017151286721582034426937634898770745321083970991828596507351214344719931165260927759730892369931378782414563661902223709967008175006255384745363108491684436219338533547366407845923941095057950052615185000992864088910399171142152272903111820636720328549802224298673418212682002507514380354767990985285, 1072),
   (378328946625632047889804283209488745281136624156426071103068928856188694058804606869002721964109707385145582089510197507378822461921318263723397647621124340297603985695843844396138616251518276565279645416390193085426700011703589670660303160989182158428947147774324121458252879254402614668388203350778006830981566483200181735626497240102461876990698084201863558821770527314925203532462926892202343582241574003858602311715, 1075),
   (239103894267399454266356306988396887017678346466861276937139563037111254645164511541209720281317335067412007880570444824663415795934273142673187313296550583068085718959773309658359605470959550789256735903158602029989674407396668671857311597745163124127094597393372844761615819688782452470421344517691700317180350017382514856915946255744755906258121189215577769175358973263032728632516569795871881143976674770438636661004, 1078),
   (151352765071263854550603542323655229482190393313523188301209343402491424190389135805585752938073873097671800988401091574011942198826394899312127569316716519082098260101536505013741630263117395649599513826699395084983463899882091269285678241372688257572450880150005010734102813862999292413776711079698846300775161561003131904427793979886430488661390712773460727888002230075499717224382988680786900764137235129687657006415, 1081),
   (959576530551812837850826458331974154917087093607737013829667237171795629367067121007413673627388355439239218266462920579235713540559343661638888789467982730980502969043741441787121935868164288418460917661274164838795161125252458647271200050302843553009338580151031768054211839891415513903344348245290685546914524296759856274072213832479969298113217118983741014809934138678668207202588148236188950844630070722219745420673, 1083),
   (609331096900401152035274801040803588372350304440913003781838695604090224648087621839707682753391605703916903599203954567814678098255183225140694381312169034172619385342775815534822429276284323145722682714909094672634927314535311241017212031942305656160929998395905172714424518331048851328623661135759585322290722928442508734035855783624780504301892870554675544404308178060954311573643474129979983786340094908609538342128, 1086),
   (387534577628655132694434773461951082204814793624420670405249410404201382876183727490054086231157061227691150689093715105130135270490296531189481626514539505733785929078005418680147065019716829520679626206682184211795813772044457949286946852315306397318351478979795689846373993658547069445004648482343096264976899782489435554846804278385360400736003865672773646241140001246766942160837249546667269688112300361875666385593, 1089),
   (246859525949453319526354950695262839364467023538755967048143874427476280892129034411164452929247048002039262988952696521967896167302318890367699796089761665152421636822689451699253680417559620404672921893656551342913933372792319713695785144924850175091789892110129854432140233960494483236467961083252552320790285161445770448437414325331474575268834462433556812655606180794190542156453327961227050791327535330514799487623, 1092),
   (157496377555751217857814458543577691514529961017726306976715791884729867209178323954322920968859616625301049786951820381015517754738879452054592469905267942367245004292875870184123848106403037818181324168152879756779089491841499977337910922462054411708561951166262847127705469266795480304866559171115128380664201933002401546103070339561480779021516387032609246474276743346693565895817223239262858404866967540868442073103, 1095),
   (100640185258125028211143439009346144877784645090327110158121391014342385146664949006812346499101295023567370813862213223468915845278143969862884588269466215172669557743147681047655138939991541165817866143449690164581838185286718485518925079453252769081771086795241959314603794861482311914809731310342567035244425035188534587959861946979786217794748971313837308497062838998537188607427205649888966520709992258614934484713, 1098),
   (644097185652000180551318009659815327217821728578093505011976902491791264938655673643599017594248288150831173208718164630201061409780121407122461364924583777105085169556145158704992889215945863461234343318078017053323764385834998307321120508500817722123334955489548539613464287113486796254782280386192429025564320225206621362943116460670631793886393416408558774381202169590638007087534116159289385732543950455135580702164, 1100),
   (412866296002932115733394844191941624746623728018557936712677194497238200825678286805546970277913152704682782026788343527958880363669057821965497734916658201124359593685489046729900441987421298478651214066888008931180532971320233914992838245949024159881057706468800613892230608039745036399315441727549347005386729264357444293646537651289874979881178179917886174378350590707598962543109368458104496254560672241741907230087, 1103),
   (265060162033882418300839489971226523087332433387914195369538758867226924930085460129161154918420244036406346061198116544949601193475535121701849545816494565121838859146083968000596083755924473623294079430942101733817902167587590173425402153899273510643639047552969994118812050361516313368360513589086680777458280187717479236521077172128099737083716391507282923950901079234278533952676214550103086595427951579198304441716, 1106),
   (170433684187786394967439792051498654345154754668428827622613421951626912730044950863050622612544216915409280517350388938402593567404769083254289257960006005373342386430931991424383281855059436539778093074095771414844911093758820481512533584957232867343859907576559706218396148382454989495855810237782735739905674160702339149083052621678368130944829639739182920100429393947641097331570805955716284680860172865424509756023, 1109),
   (109759292616934438359031226081165133398279662006468164988963043736847731798148948355804600962478475693523576653173650476331270257408671289615762282126243867460432496861520202477302833514658277131617091939717676791160122744380680390094071628712457966569445780479304450804647119558301013235331141793132081816499254159492306412009485888360869076328470287992033800544676529702280866681531599035481287334473951325333384282879, 1112),
   (707947437379227127415751408223515110418903819941719664178811632102667870098060716894939676207986168223227069412970045572336693160285929818021666719714272945119789604756805305978603276169545887498930243011179015302982791701255388516106762005195353884372925284091513707689973921151041535367885864565701927716420189328725376357461183979927605542318633357548618013513163616579711590095878813778854303307356986048400328624569, 1114),
   (457334044546980724310575409712390761330611867682350903059512314338323444083347223114131030830359064672204686840778649439729503781544710662441996700935420322547384084672896227662177716405526643324308936985221643885726883439010980981404968255356198609304909733523117855167723153063572831847654268509443445304807442306356593126919924851033233180337837148976407236729503696310493687201937713701139879936552612987266612291472, 1117),
   (295895126821896528628942290083916822580905878390481034279504467376895268321925653354842776947242314842916432385983786187504988946659427798599971865505216948688157502783363859297428982514375738230827882229438403594065293585040104694969014461215460500220276597589457252293516880032131622205432311725609909112210415172212715753117191378618501867678580635387735482163988891512889415619653700764637502318949540602761498152582, 1120),
   (191740042180588950551554603974378101032427009197031710213118894860228133872607823373938119461813020018209848186117493449503232837435309213492781768847380582749926061803619780824733980669315478373576467684676085528954310243105987842339921370867618404142739235237968299486198938260821291189120137998195221104712349031593839808019940013344789210255720251731252592442264801700352341321535598095485101502679302310589450802873, 1123),
   (124439287375202228907958937979371387570045128968873579928314162764288058883322477369685839530716649991818191472790253248727598111495515679556815367981949998204702014110549237755252353454385745464451127527354779508291347347775786109678608969693084344288637763669441426366543110931273017981738969560828698496958314521504402035404941068660768197455962443373582932495029856303528669517676603163969830875238867199572553571065, 1126),
   (808855367938814487901733096865914019205293338297678269534042057967872382741596102902957956949658224946818244573136646116729387724720851917119299891882674988330563091718570045409140297453507345518932328927806066803893757760542609712910958303005048237876145463851369271382530221053274616881303302145386540230229044389778613230132116946294993283463755881928289061217694065972936351864897920565803900689052636797221598211921, 1128),
   (526564844528168231624028246059710026502645963231788553466661379737084921164779062989825629974227504440378677217111956621990831408793274598044664229615621417403196572708789099561350333642233281932824946132001749489334836302113238923105033855256286402857370696967241395670027173905681775589728449696646637689879107897745877212816008132038040627534905079135316178852718836948381565064048546288338339348573266554991260435961, 1131),
   (343320278632365687018866416430930937279725168027126136860263219588579368599435949069366310743196332895126897545556995717538022078533215037925121077709385164146884165406130492914000417534736099820201864878065140667046313268977831777864482073627098734663005694422641389976857717386504517684502949202213607773801178349330311942756037302088802489152758111596226148611972681690344780421759652179996597255269769793854301804246, 1134),
   (224188141946934793623319769929397902043660534721713367369751882391342327695431674742296200915307205380517864097248718203552328417282189419765104063744228512187915360010203211872842272650182673182591817765376536855581242564642524150945506794078495473734942718457984827654888089453387450047980425829045485876292169462112693698619692358263988025416751046872335675043618161143795141615409052873537778007691159675386859078173, 1137),
   (146619044833295355029651129533826227936553989708000542259817731083937882312812315281461715398610912318858683119600661705123222784902551880526378057688725446970896645446672900564838846313219468261415048818556255103550132637276210794718361443327336039822652537871522077286296810502515392331379198492195747763095078828221701678897278802304648168622555184654507531478526277388042022616477520579293706817030018427703005837125, 1140),
   (960354743658084575444214898446561792984428632587403551801806138599793129148920665093574235860901475688524374433384334168557109241111714817447776277861151677659373027675707498699694443351587517112268569761543470928253368774159180705405267453794051060838374123058469606225244108791475819770533750123882147848272766324852145996777176155095445504477736459487024331184347116891675248137927759794373779651546620701454688233169, 1142),
   (629992711839703481491404973380944536197785182977336729981984826921464292721691956301384698724751368051671989628300123214573463662169284920245741238276915500544548706155264119146999554838641411225648181763572516928934209915848422542745855449688897495909973424726356061683760135367208137769470140081266688988466934709103007773885827557742612250937395117423487961256931708680938962778480610425109199451414583180154275480959, 1145),
   (413905211678685187339853067511280560281944865216110231598164031287402040318151615290009747062161648809948497185793180951974765626045220192601451993547933483857768499944008526279578707528987407175250855418667143622309775914712413610584027030445605654812852540045215932526230408936255746514541882033392214665422776103880676107442988705436896248865868592147231590545804132603376898545461761049296744039579381149361358990990, 1148),
   (272349629284574853269623318422422608665519721312200532391591932587110542529343762860826413566902364916946111148251913066399395781937754886731755411754540232378411672963157610291962789554073713921315062865482980503479832551880768155764289786033208520866856971349752083602259609080056281206568558377972077249848186676353484878697486568177477731753741533632878386579139119253021999242913838770437257578043232796279774216071, 1151),
   (179478405698534828304681766840376499110577496344740150846059083574905847526837539725284606540588658480267487246698010710757201820296980470356226816346242013137373292482720865182403478316134577474146626428353284151793209651689426214648666968995884415251258744119486623093889082383757089315128679971083598907649955019716946535061643648428957825225715670664066856755652679587741497501080219749718152743930490412748371208391, 1154),
   (118455747761032986681089966114648489412981147587528499558398995159437859367712776218687840316788514596976541582820687069099753201396007110435109698788519728670666373038595771020386295688648821132936773442713167540183518370115021301668120199537283714065830771118861171241966794373279678947984928780915175279048970313013184713140684807963112164648972342638284125458730768527909388350712945034813980810994123672413924997538, 1157),
   (782992492700428041962004676017826515019805385553563382081017358003884250420581450805526624493972081486014939862444741526749368661227606999976075108992115406513104725785118046444753414501968707688712072456334037440613056426460290804026274518941445349975141397095672341909400510807378677846180379241849308594513693769017150953859926580636171408329707184839058069282210379969481056998212566680120413160671157474656044233727, 1159),
   (518341030167683363778847095523801152943111165236458958937633490998571373778424920433258625415009517943741890188938418890708082053732675833984161722152780399111675328469748146746426760400303284489927391966093132785685843354316712512265393731539236821683543604877335090344023138154484684734171411058104242289568065275089353931455271396381145472314266156363456441864823271539796459732816719142239713512364306248222301282727, 1162),
   (343660103001174070185375624332280164401282702551772289775651004532052820815095722247250468650151310396700873195266171724539458401624764077931499221787293404611040742775443021292880942145401077616821860873519747036909714143911980395631956044010514012776189410033673164898087340596423345978755645531523112637983627277384241656554844935800699448144358461668971620956377829030885052802857484791304930058697535042571385750448, 1165),
   (228190308392779582603089414556634029162451714494376800411032267009283073021223559572174311183700470103409379801656738025094200378678843347746515483266762820661731053202894166138472945584546315537569715620017112032508050191557554982699618813222981304483389768262358981492329994156025101729893748632931346791621128512183136459952417037371664433567854018548197156315034878476507675061097369901426473558975163268267400138298, 1168),
   (151746555081198422431054460680161629393030390138760572273336457561173243559113667115495916937160812618767237568101730786687643251821430826251432796372397275740051150379924620482084508813723299832483860887311379501617853377385774063495246510793282567481454195894468722692399446113756692650379342840899345616428050460601785745868357329852156848322622922334551108949498194186877603915629750984448604916718483573397821091968, 1171),
   (101063205684078149339082270812987645175758239832414541134042080735741380210369702298920280680149101204098980220355752703933970405713072930283454242384016585642874066153029797241068282869939717688434251350949378748077490349338925526287834176188326189942648494465716169313138031111761957305152642332038964180541081606760789306748325981681536460982866866274811038560365797328460484207809414155642770874534510059882948847251, 1174),
   (674091581912801256091678746322627593322307459682204989364060678507395006003165914333798272136594505031340198069772870535239582606106196444990639796701390626237970021240708747597925446742497916981856456510832356249676860630090633260339853955176135686917465458086326849318630667515452255225368124354699891084209014317094464676011334297815848194755721998052989627197639868180831429666088792418137281733145182099419268811161, 1176),
   (450293176717751239069241402543515232339301383067712932895192533242939864010114830774977245787245129360935252310608277517540041180878939225253747384196528938326963974188793443395414198423988608543880112949236013974784142900900543017907022442057658638860866926001666335344845285900322106490545907068939527244251621563819102403575571310940986594096822294699397070968023431944795395016947313335315704197740981642412071565856, 1179),
   (301246135224175578937322498301611690434992625272299952106883804739526769022766821788459777431666991542465683795796937659234287550008010341694757000027477859740738898732302813631532098745648379115855795563038893349130591600702463278979798013736573629397919973495114778345701496267315489242175211829120543726404334826194979507992057207019520031450774115153896640477607675971068119266337752621326206108288716718773675877558, 1182),
   (201834910600197637888006073862079832591445058932440967911612149175482935245253770598268050879216884333452008143183948231686972658505366928935487190018410166026295062150642885133126506159584414007623383027236058543917496372470650396916464669203504331696606382241726901491620002499101377792257391925510764296690904333550636270354678328703078421072018657153110749119997142900615639908446294256288558092553440201578362837964, 1185),
   (135431225012732615022852075561455567668859634543667889468691752096749049549565280071437862139954529387746297464076429263461958653857101209315711904502353221403643986703081375924327885633081141799115290011275395282968640065927806416330947793035551406568422882484198750900877021676897024498604709982017722843079596807812476937407989158559765620539324518949737312659518082886313094378567463445969622480103358375259081464274, 1188),
   (910097832085563172953565947772981414734736744133448217229608574090153612973078682080062433580494437485655118958593604650464362153919720126601583998255813647832487590644706846211483391454305272890054748875770656301549261243034859117743969169198905452139801770293815606053893585668748004630623651079159097505494890548499845019381687145521624970024260767342234741071961516996023994223973354356915863066294568281741027439918, 1190),
   (612495840993584015397749882851216492116477828801810650195526570362673381530881953039882017799672756427845895059133495929762515729587971645202866030826162584991264148503887707500328322448747448655006845993393651690942652816562460186241691250870863369290086591407737902874270383155067407116409717176274072621198061339140395698043875448936053604826327496421323980741430100938324148112734067482204375843616244453611711467065, 1193),
   (412822196829675626378083421041719915686506056612420378231784908424441859151814436348880479996979437832368133269855976256659935601742292888866731704776833582284112036091620314855221289330455780393474614199547321239695347998363098165526899903086961910901518362608815346537258238246515432396460149376808724946687493342580626700481572052582900129652944732587972363019723888032430475827982761483005749318597348761734293528802, 1196),
   (278654982860031047805206309203160943088391588213383755306454813186498254927474744535494323997961120536848489957152783973245456531176047699985043900724362668041775624361843712527274370298057651765595364584694441836794359898895091261730657434583699289858524894760950358912649310816397916867610600829345889339014058006241923022825061135493457587515737694496881345038313624421890571183888364001028880790053210414170648131941, 1199),
   (188370768413380988316319465021336797527752713632247418587163453714072820330972927305994163022621717482909579211035281965913928615075008245189889676889669163596240322068606349668437474321486972593542466459253442681672987291653081692929924425778580719944362828858402442624950934111884991802504766160637821193173503212219539963429741327593577329160638681479891789245900010109198026120308534064695523414075970239979358137192, 1202),
   (127527010215858929090148277819445011926288587129031502383509658164427299364068671786158048366314902735929785125870885890923729672405780581993555311254306023754654698040446498725532170115646680445828249792914580695492612396449136306113558836252099147402333635137138453657091782393746139450295726690751804947778461674672628555241934878780851851841752387361886741319474306843927063683448877561798869351329431852466025458879, 1205),
   (864633129263523539231205323615837180860236620734833586160195482354817089688385594710151567923615040549603943153404606340462887178911192345916305010304194841056558852714227261359108113384084493422715533595960857115439912047925144155449928909789232219387822046229798715795082284629598825473005026963297237545937970154280421604540318478134175555487081186313592106146035800401825491773783389868996334202013547959719652611201, 1207),
   (587085894769932483137988414735153445804100665478952005002772732518920803898413818808192914620134612533181077401161727705174300394480699602877171101996548297077403460992960310462834408987793371034023847311657421981383700280541172881550501729746888676964331169390033328024860871263497602496170413308078824293691881734756406269482876246653105202175728125506929040073158308472839508914398921721048510923167199064649644123005, 1210),
   (399218408443554088533832122019904343146788452525687363401885458112866146650921396789571181941691536522563132632789974839518524268246875729956476349357652842012634353475213011114727398111699492303136216171927046947340916190767997559454341176227884300335745195185222663056905392459178369697395881049493600519710479579634356263248355847724111537479495125344711747249747649761530866061791266770312987427753695363961758003644, 1213),
   (271867736150060334291539675095554857682962936169993094476683996974861845869277471213697974902291936371865493322929972865712115026676122372100360393912561585410603994716620060569129358114067354258435763213082318971139163925913006337988406341011189208528642477921136633541752572264700469763926594994705141953922836593730996615272130332300119957023536180359748699877078149487602519788079852670583144438300266542857957200481, 1216),
   (185413796054341147986830058415168412939780722467935290433098485936855778882847235367742018883363100605612266446238241494415662448193115457772445788648367001250031924396734881308146222233793935604253190511322141538316909797472670322508093124569631040216534169942215184075475254284525720378997937786388906812575374556924539691615592886628681810690051675005348613316167297950544918495470459521337704506920781782229126810728, 1219),
   (126637622705115004075004929897560026037870233445599803365806265894872496976984661756167798897336997713633177982780718940685897452115897857658580473646834661853771804362969923933463869785681258017704929119233022670670449391673833830273027604081058000467892838070532970723549598676331067018855591508103623352988980822379460609373449941567389676701305294028653102894942264500222179332406323853073652178226893957262493611727, 1222),
   (866201339302986627873033720499310578099032396767902655022114858720927879322575086412187744457785064361250937402220117554291538572472741346384690439744349087079799141842714279704892869334059804841101715175553875067385873839049023399067508811914436723200387012402445519749079254946104498408972245915428783734444628825075510568114397600320945388636928211155987223801405089181519706633659255155023780899071954667675456304215, 1224),
   (593347917422545840093028098542027745997837191786013318690148678223835597335963934192348604953582769087456892120520780524689703922143827822273512951224879124649662412162259281597851615493830966316154674895254404421159323579748581028361243536161389155392265103495675181028119289638081581410145988452068716858094570745176724739158362356219847591216295824641851248303962486089340999044056589781191289915864288947357687568388, 1227),
   (407036671351866446303817275599831033754516313565205136621441993261551219772471258855951142998157779593995427994677255439937136890590665886079629884540267079509668414743309867176126208228768042892882106978144521432915295975707526585455813065806712960599093860998033174185289832691723964847360148078119139764652875531191233171062636576366815447574378935704309956336518265457287925344222820589897224882282902217887373671914, 1230),
   (279634193218732248610722468337083920189352707419295928858930649370685687983687754834038435239734394581074859032343274487236813043835787463736705730679163483623142200928653878749998705053163645467410007493985286224412808335311070764208143576209211803931577482505648790665294115059214363850136421729667849018316525489928377188520031327964002212483598328828860940003188048369156804711481077745259393494128353823688625712605, 1233),
   (192388324934487787044177058215913737090274662704475599054944286767031753332777175325818443444937263471779503014252172847218927374159021775050853542707264476732721834238913868579999109076576588081578085155861876922396012134694016685775202780431937721104925307963886367977722351160739482328893858150011480124601769537070723505701781553639233522188715650234256326722193377277979881641498981488738462723960307430697774490272, 1236),
   (132555555879862085273437993110764564855199242603383687748856613582484878046283473799488907533561774532056077576819747091733840960795566003010038090925305224468845343790611655451619386153761269188207300672388833199530852360804177496499114715717605089841293537187117707536650699949749503324607868265357909805850619211041728495428527490457431896788025083011402609111591236944528138450992798245740800816808651819750766623797, 1239),
   (914633335571048388386722152464275497500874773963347445467110633719145658519355969216473461981576244271186935280056254932963502629489405420769262827384606048835032872155220422616173764460952757398630374639482949076762881289548824725843891538451475119904925406591112182002889829653271572939794291030969577660369272556187926618456839684156280087837373072778678002869979534917244155311850307895611525635979697556280289704203, 1241),
   (632011634879594436375225007352814368773104468808673084817773447899929650036874974728583162229269184791390172278518872158677780316977179145751560613722762779745007714659257312027776071242518355362453588875882717812043150971078237885558129053069969307854303455954458517763996872290410656901397855102399978163315167336325857293353676221751989540695624793290066499983155858627815711320488562755867564214461971011389680185604, 1244),
   (437352051336679349971655705088147543190988292415601774693899225946751317825517482512179548262654275875641999216735059533805023979348207968860079944696151843583545338544206059923221041299822701910817883502110840725933860471986140616806225304724418761035177991520485294292685835624964174575767315730860784889014095796737493247000743945452376762161372356956726017988343854170448472233778085427060354436407683939881658688438, 1247),
   (303084971576318789530357403626086247431354886644012029862872163581098663253083615380940426946019413181819905457197396256926881617688308122420035401674433227603396919611134799526792181620777132424196793266962812623072165307086395447446714136174022201397378348123696308944831284088100172981006749801486523928086768387139082820171515554198497096177831043371011130465922290940120791258008213200952825624430524970337989471088, 1250),
   (210340970273965239934068038116503855717360291330944348724833281525282472297640029074372656300537472748183014387294993002307255842675685836959504568762056659956757462210127550871593774044819329902392574527272191960412082723117958440528019610504771407769780573597845238407712911157141520048818684362231647606092217260674523477199031794613756984747414744099481724543350069912443829133057699961461260983354784329414564692935, 1253),
   (146186974340405841754177286490970179723565402475006322363759130660071318246859820206688996128873543559987194999170020136603542810659601656686855675289629378669946436236038647855757672961149434282162839296454173412486397492566981116166973629300816128399997498650502440693360473254213356433928985631750995086234090996168793816653327097256561104399453247149139798557628298589148461247475101473215576383431575108943122461590, 1256),
   (101746134140922465860907391397715245087601520122604400365176354939409637499814434863855541305695986317751087719422334015076065796219082753054051550001582047554282719620282898907607340380960006260385336150332104695090532654826618856852213645993368025366398259060749698722578889384932496078014573999698692580018927333333480496390715659690566528662019460015801299796109295818047329028242670625358041162868376275824413233266, 1259),
   (709170554962229587050524518042075258260582595254552670545279193927685173373706611001073122900701024634725081404373668085080178599647006788786739303511026871453350555753371805386023162455291243634885792967814769724781012604141533432259929112573775136803795865653425400096374859012979497663761580777899887282731923513334359059843288148043248704774275636310135059578881791851789883326851414258745546905192582642496160235867, 1261),
   (495001047363636251761266113593368530265886651487677764040604877361524251014847214478749039784689315195038106820252820323385964662553610738573144033850696756274438687915853520159444167393793288057150283491534709267897146797690790335717430520576495045489049514226090929267269651591059689369305583382974121323346882612307382623770615127334187595932444394144474271586059490712549338562142287152604391739824422684462319844635, 1264),
   (346005732107181739981125013401764602655854769389886757064382809275705451459378202920645578809497831321331636667356721406046789299124973906262627679661637032635832642853181610591451473008261508351948048160582761778260105611585862444666483933882970036796845610444037559557821486462150722869144602784698910805019470946002860454015659974006597129556778631506987515838655584008071987654937458719670469826137271456439161571400, 1267),
   (242204012475027217986787509381235221859098338572920729945067966492993816021564742044451905166648481924932145667149704984232752509387481734383839375763145922845082849997227127414016031105783055846363633712407933244782073928110103711266538753718079025757791927310826291690475040523505506008401221949289237563513629662202002317810961981804617990689745042054891261087058908805650391358456221103769328878296090019507413099980, 1270),
   (169785012744994079808738044076245890523227935339617431691492644511588665031116884173160785521820585829377434112671943193947159509080624695803071402409965291914403077848056216317225237805153922148300907232397961204592233823605182701597843666356373397056212141044889230475023003406977359711889256586451755532023054393203603624785484349245037211473511274480478774022028295072760924342277810993742299543685559103674696583086, 1273),
   (119189078946985844025734106941524615147306010608411437047427836447135242851844052689558871436318051252222958747095704122150905975374598536453756124491795634923910960649335463854692116939218053348107236877143368765623748144170838256521686253782174124733460923013512239793466148391698106517746258123689132383480184184028929744599410013170016122454404914685296099363463863141078168888279023317607094279667262490779637001326, 1276),
   (837899224997310483500910771798918044485561254577132402443417690223360757248463690407598866197315900303127399992082799978720869006883427711269905555177323313515094053364828310898485582082702915037193875246317882422334949453520992943347454364088684096876230288784991045748067023193637688819756194609534600655865694813723376104533852392585213340854466550237631578525150957881779527284601533922777872786060855310180848119324, 1278),
   (589881054398106580384641183346438303317835123222301211320166053917245973102918438046949601802910393813401689594426291185019491780845933108734013510844835612714626213568839130872533849786222852186184488173407789225323804415278779032116607872318433604200866123304633696206639184328320932929108361005112358861729449148861256777591832084379990191961544451367292631281706274348772787208359479881635622441386842138367317076004, 1281),
   (415866143350665139171172034259239003839073761871722353980717068011658411037557498823099469271051827638448191164070535285438741705496382841657479525145609106963811480566031587265136364099287110791260064162252491403853282112771539217642208549984495690961610616929766755825680624951466257715021394508604212997519261649947186028202241619487893085332888838213941305053602923415884814981893433316553113821177723707548958538583, 1284),
   (293601497205569588254847456187022736710386075881435981910386250016230838192515594169108225305362590312744422961833797911519751644080446286210180544752800029516450905279618300609186273054096700218629605298550258931120417171616706687655399236289053957818897095552415329612930521215735177946805104523074574376248598724862713335910782583358452518245019519779042561367843663931614679377216763921486498357751472937529564728240, 1287),
   (207576258524337698896177151524225074854242955648175239210643078761475202602108525077559515290891351351110307034016495123444464412364875524350597645140229620868130790032690138530694695049246367054571130946075033064302134940333011628172367260056361148177960246555557638036341878499524770808391208897813724084007759298477938328488923286434425930399228800483783090887065470399651578319692252092490954338930291366833402262865, 1290),
   (146963991035231090818493423279151352996804012598908069361135299763124443442292835754912136825951076756586097380083678547398680803954331871240223132759282571574636599343144618079731844094866427874636360709821123409525911537755772232746036020119903692909995854561334807729730049977663537732340975899652116651477493583322380336570157686795573558722653990742518428348042353042953317450342114481483595671962646287718048802109, 1293),
   (104197469643978843390311837104918309274734044932625821177044927532055230400585620550232705009599313420419543042479328090105664690003621296709318201126331343246417348934289534218529877463260297363117179743263176497353871280268842513016939538265011718273187060883986378680378605434163448252229751912853350705897542950575567658628241799938061653134361679436445565698762028307453902072292559167371869331421516217992096600695, 1296),
   (739802034472249788071214043444919995850611719021643330357018985477592135844157905906652205568155125284978755601603229439750219299025711206636159227996952537049563177433455692951562129989148111278131976177168553131212486089908781842420270721681583199739628132276303288630688098582560482590831238581258790011872554949086530376260516779560237737253967923998763516461210400982922704713277170088340272253092765147743885864935, 1298),
   (525999246509769599318633184889338117049784932224388407883840498674568008585196271099629718158958294077619895232739896131662405921607280667918309211105833253842239419155186997688560674422284307118751835061966841276292077609925143889960812483115605655014875602048451638216419238092200503122081010631274999698441386568800523097521227430267329031187571193963120860203920595098858043051140067932809933571948956020045902849969, 1301),
   (374511463514955954714866827641208739339446871743764546413294435056292422112659745022936359329178305383265365405710806045743633016184383835557836158307353276735674466438493142354255200188666426668551306564120390988719959258266702449652098487978311226370591428658497566410090497521646758222921679569467799785290267236985972445435113930350338270205550690101742052465191463710386926652411728368160672703227656686272682829178, 1304),
   (267026673486163595711700048108181831149025619553304121592678932195136496966326398201353624201704131738268205534271804710615210340539465674752737180873142886312535894570645610498583957734519162214677081580217838774957330951144158846601946221928535904402231688633508764850394524732934138612943157533030541246911960539970998353595236232339791186656557642042542083407681513625505878703169562326498559637401319217312422857204, 1307),
   (190657044869120807338153834349241827440404292361059142817172757587327458833957048315766487680016750061123498751470068563379260183145178491773454347143424020827150628723440965895988945822446681821279436248275536885319534299116929416473789602456974635743193425684325258103181690659314974969641414478583806450295139825539292824466998669890610907272782156418375047553084600728611197394063067501119971581104541921161069920043, 1310),
   (136319787081421377246779991559707906619889069038157287114278521674939133066279289545773038691211976293703301607301099022816171030948802621618019858207548174891412699537260290615632096263049377502214796917517008873003467023868604532778759565756736864556383299364292559543774908821410207103293611352187421611961024975260594369493904048971786798700039241839138159000455489520957006136755093263300779680489747473630164992831, 1313),
   (976049675502977061086944739567508611398405734313206175738234215192564192754559713147734957029077750262915639508275869003363784581593426770785022184766044932222514928686783680807925809243433542915857945929421783530704823890899208454695918490818235950223704423448334726333428347161297082859582257281661938741640938822865855685576352990637993478692280971568229218443261304970052163939166467765233582512306591911191981348670, 1315),
   (699827617335634552799339378269903674372656911502568828004313932293068526205019314326925964189848746938510513527433798075411833545002486994652860906477254216403543203868423899139282805227541850270670147231395418791515358729774732462016973557916675176310396071612455998781068124914650008410320478470951610077756553135994818526558245094287441324222365456614420349623818355663527401544382357387672478661323826400324650626997, 1318),
   (502476229246985608909925673597790838199567662458844418507097403386423201815203867686732842288311400301850548712697467018145696485311785662160754130850668527377744020377528359582005054153375048494341165712141910692308027567978257907728187014584172776590864379417743407124806913688718706038610103542143256035829205151644279702068819977698382870791658397849153811029901579366412674308866532604348839678830507355433099150184, 1321),
   (361280408828582652806236559316811612665489149307909136906603033034838282105131580866760913605295896817030544524429478786046755772939173891093582220081630671184597950651442890539461633936276659867431298147030033787769471821376367435656566463486020226368831488801357509722736170942188749641760664446801001089761198504032237105787481563965137284099202388053541590130499235564450712828075036942526815729079134788556398288982, 1324),
   (260121894356579510020490322708104361119152187501694578572754183785083563115694738224067857795813045708261992057589224725953664156516205201587379198458774083252910524469038881188412376434119195104550534665861624327194019711390984553672727853709934562985558671936977407000370043078375899742067678401696720784628062922903210716166986726054898844551425719398549944893959449606404513236214026598619307324936977047760606768067, 1327),
   (187547885831093826724773522672543244366908727188721791150955766509045249006415906259552925470781205955656896273521831027412591856848183950344500402088776114025348488142177033336845323408999939670380935494086231139906888211912899863198036782524862819912587802466560710447266801059509023714030796127623335685716833367413214926356397429485582066921577943686354510268544763166217654043310313177604520581279560451435397479776, 1330),
   (135409573570049742895286483369576222432908101030257133210990063419530669782632284319397212189904030699984279109482762001791891320644388812148729290308096354326301608438651818069202323501297956442015035426730258883012773289001113701228982556982950955976888393380856832942926630364965515121530234804144048365087553691272341176829318944088590252317379275341547956413889319006009146219270046114230463859683842645936356980399, 1333),
   (979011216911459641132921274762036088189925570448759073115458158523206742528431415629241844133006141960886337961560369272955374248258931111835312768927536641779160629011452644640332798914384225075768706135259771724182350879478052059885543886986735411712903084143594902177359537538700674328663597633961469679583013187899026708475975965760507524254652160719391724872419776413446127165322433405886253705514182330119860968281, 1335),
   (708804121043896780180235002927714127849506113004901568935591706770801681590584344915571095152296446779681708684169707353619690955739466124968766444703536528648112295404291714719600946414014178954856543241928074728308022036742109691357133774178396438080141832919962709176408305178019288213952444686988104048018101548038895336936606599210607447560368164360839608807631918123334996067693441785861647682792268007006779341036, 1338),
   (513882987756825165630670377122592742690891931928553637478303987408831219153173650063789043985414923915269238796023037831374275942911112940602355672410063983269881414168111493171710686150160279742270993850397854178023315976638029526233921986279337417608102828866972964152896021254063983955115522398066375434813123622328199119279039784427690399481266919161608716385533140639417872149077745294749694570024394305079915022251, 1341),
   (373079049111455070247866693791002331193587542580129940809248694858811465105204069946310845933411234762485467365912725465577724334553467994877310218169706451853933906686048944042661958145016363092888741535388842133244927399039209436045827362038798965183482653757422371975002511430450452351413869260996188565674327749810272560596582883494503230023399783311327928095897060104217375180230443083988278257837710265488018306154, 1344),
   (271228468704027836070199086386058694777738143455754466968323801162355935131483358850967984993589967672326934775018551413475005591220371232275804528609376590497809950160757582319015243571426895968530115096227688230869062219101505260005316492202206847688391889281646064425826825809937478859477882952744229087245236274112068151553715756300503848227011642467335403725717162695766031756027532122059478293448015363009789308574, 1347),
   (197454325216532264659104934889050729798193368435789251952939727246195120775719885243504693075333496465454008516213505429009804070408430257096785696827626157882405643717031519928243097319998780265089923790053757032072677295505895829283870406323206585117149295397038334902001929189634484609699898789597798775514532007553585614331105070586766801509264475716220173912322094442517671118388043384859300197630155184271126616642, 1350),
   (143944203082852020936487497534117982022882965589690364673693061162476243045499796342514921251918118923315972208319645457748147167327745657423556772987339469096273714269715978027689217946279110813250554442949188876380981748423798059547941526209617600550401836344440946143559406379243539280471226217616795307350093833506563912847375596457752998300253802797124506782082806848595382245304883627562429844072383129333651303532, 1353),
   (105079268250481975283635873199906126876704564880473966211795934648607657423214851330035892513900226814020659712073341184156147432149254329919196444280757812440279811416892663960213129100783750893672904743352907879758116676349372583469997314133020848401793340531441890684798366656847783674743995138860260574365568498459791656378584185414159688759185276041900889950920448999474629039072565048120573786172839684413565451578, 1356),
   (768129450911023239323378233091313787468710369276264693008228282281321975763700563222562374276610658010491022495256124056181437729011049151709326007692339608938445421457485373549157973726729219032748933673909756601031832904113913585165680366312382401817109319284840220905876060261557298662378604465068504798612305723741077008127450395377507324829644367866295505541228482186159538275620450501761394376923458093063163451037, 1358),
   (562270758066869011184712866622841692427095990310225755282023102629927686259028812278915657970479001663679428466527482809124812417636087979051226637630792593742942048506879293437983636767965788331972219449301941831955301685811384744341278028140663918130124021716503041703101276111459942620861138468430145512584207789778468369949293689416335361775299677278128310056179248960268782017754169767289340683907971324122235646159, 1361),
   (412144465663014985198394531234542960549061360897395478621722934227736994027868119400445177292361108219477021065964644899088487502127252488644549125383370971213576521555542522090042005750918922847335636856338323362823236135699745017602156794627106651989380907918196729568373235389700137941091214497359296660724224309907617315172832274342173820181294663444868051271179389487877017219013806439423086721304542980581598728635, 1364),
   (302514037796652999135621585926154533043011038898688281308344633723158953616455199639926760132593053433096133462418049355930949826561403326665099058031394292870765166821768211214090832221174489369944357452552329348312255323603612842919983087256296282560205586411956399503185954776039901248760951441061723748971580643472191109336858889367155584013070282968533149633045671884101730638756133926536545653437534547746893466818, 1367),
   (222347817780539954364681865655723581786613113590535886761633305786521830908094571735346168697455894273325658094877266276609248122522631445098847807653074805260012397613999635242356761682563249686909102727625962071009507662848655439546187569133377767681751106012787953634841676760389327417839299309180366955494111772952060465362591283684859354249606657981871864980288568834814772019485758436004361055276587892593966698111, 1370),
   (163647993886477406412405853122612556194947251602634412656562113058880067548357604797214780161327538185167684357829667979584406618176656743592751986432663056671369124643903731538374576598366551769565099607532708084262997639856610403505994050882166037013768814025411933875243474095646544979529724291556750079243666264892716502506867184792056484727710500274657692625492386662423672206341518208899209736683568688949159489810, 1373),
   (120608571494333848525943113751365453915676124431141562127886277324394609783139554735547292978898395642468583371720465300953707677596196020027858214000872672766799044862557050143782062952996148654169478410751605858101829260574321867383917615500156369279147615936728595266054440408491503649913406802877324808402582037225932062347561115191745629244322638702422719464987888970206246416073698919958717575935790123755530543990, 1376),
   (890091257628183802121460179485077049897689798301824728503800726654032220199569913948339022184270159841418145283297033921038362660659926627805593619326440325018976951085671030061111624593111577067770750671346851232791499943038495381293312002391154005280109405613057033063481770214667296936360942205234657086011055434727378620125001030115082743823101073623879669651610620600122098550623898029295335710406131113315815414645, 1378),
   (657777439387227829767759072639471939874392760945048474364308736997329810727482166407822537394175648122808009364356508067647350006227685777948333684682239400189023966852310891215161490574309455453082584746125323061032918457905448086775757569767062809902000850748049147433913028188639132435970736289668411586562169966263532800272375761255046147685271693408047075872540248623490230828911060643649253089990130892740387591423, 1381),
   (486755305146548594028141713753209235507050643099335871029588465378024059938336803141788677671689979610877926929623815970059039004608487475681766926664857156139877735470710059499219503024988997035281112712132739065164359658850031584214060601627626479327480629553556369101095640859592958002618344854354624574056005775035014272201558063328734149287101053121954836145679783981382770813394184876300447286592696860627886817653, 1384),
   (360685681113592508174853009891128043510724526536607880432925052845115828414307571128065410154722274891660543854851247633813747902414889219480189292658659152699649401983796154088921651741516846803143304519690359647286790507207873403902618905806071221181663146499185269503911869876958381879940193537076776809375500279300945575701354524926592004621741880363368533583948719930204633172725090993338631439365188373725264131881, 1387),
   (267628775386285641065740933339217008284957598690163047281230389211075944683416217777024534334803927969612123540299625744289800943591847800854300455152725091303139856271976746333979865592205500327932331953610246858286798556348242065695743228108104846116794054702395469971902607448703119354915623604510968392556621207241301617170405057495531267429332475229619451919289950188211837814162017517057264528008969773304145985856, 1390),
   (198848180112010231311845513471038237155723495826791144129954179183829426899778249808329229010759318481421807790442621928007322101088742916034745238178474742838232913210078722526147040135008686743653722641532413415707091327366743854811937218484321900664777982643879834189123637334386417680702308338151649515669569556980287101557610957719179731699994029095607252776032432989841395495922379015173547544310664541564980467491, 1393),
   (147943046003335612096013062022452448443858280895132611232685909312769093613435017857396946384004932950177824996089310714437447643210024729529850457204785208671645287428298569559453397860446462937278369645300115581286075947560857427980081290552335494094594819087046596636707986176783494754442517403584827239658159750393333603558862552543069720384795557647131796065368130144441998248966249987289119372967134418924345467813, 1396),
   (110217569272485031011529731206727074090674419266873795368351002438012974742009088303760725056083675047882479622086536482255898494191468423499738590617564980460375739134082434321792781406032614888272385385748586108058126580932838783845160561461489943100473140219849714494347449701703703592059675465670696293545329014043033534651352601644586941686672690447113188068699256957609288695479856240530393932860515142098637373521, 1399),
   (822223066772738331346011794802183972716431167730878513447898478187576791575387798746055008918384215857203297980765562157629002766668354439308049886007034754234403013940254960040574149289003307066511994977684452366113624293758977327484897788502714975529529626040078870127831974774709628796765178973903394349848154444761030168499090408268618584982578270735464382992496456903765293668279727554356738739139442960055834806465, 1401),
   (614200630879235533515470810717231427619174082294966249545580163206119863306814685663303091662033009245330863591631874931748865066701260766163113264847254961413099051413370455150308889518885470378684460248330285917486877347437956063631218648011528086720558630651938915985490485156708092711183588693505835579336571370236489535868820534976658082981985968239391894095394853307112674370204956483104483838137163891161708600429, 1404),
   (459422071897668179069572166416489107859142213556634754660093962078177657753497384876150712563200690915507485966540642448948151069892543053090008722105746711136998090457201100452431049360126331843255976265751053866280184255883591135596151548712623008866977855727650309157146882897217653347965324342742365013343755384936894172829877760162540246070525504243065136783355350273720280428913307449362153910926598590588958033121, 1407),
   (344107131851353466123109552645950341786497517953919431240410377596555065657369541272236883709837317495715106988938941194262165151349514746764416532857204286641611569752443624238870855970734622550598726223047539345843858007656809760561517509985754633641366413940010081558703015290016022357626027932714031394994472783317733735449578442361742644306823602678055787450733157355016490041256067279572253279284022344351129566808, 1410),
   (258080348888515099592332164484462756339873138465439573430307783197416299243027155954177662782377988121786330241704205895696623863512136060073312399642903214981208677314332718179153141978050966912949044667285654509382893505742607320421138132489315975231024810455007561169027261467512016768219520949535523546245854587488300301587183831771306983230117702008541840588049868016262367530942050459679189959463016758263347175106, 1413),
   (193818342015274839793841455527831530011244726987545119646161145181259640731513394121587424749565869079461534011519858627668164521497614181115057612131820314450887716663063871352544009625516276151624732545131526536546553022812698097636274737499476297398499632651710678437939473362101524592932860233101178183230636795203713526491975057660251544405818394208414922281625450880213038015737479895219071659556725585455773728504, 1416),
   (145751393195486679524968774556929310568456034694633929973913181176307249830098072379433743411673533547755073576662933688006459720166205864198523324323128876467067562930624031257113095238388239666021798873938907955483007873155148969422478602599606175643671723754086430185330483968300346493885510895292085993789438869993192571921965243360509161393175432444728021555782339061920204587834584881204741887986657640262741843835, 1419),
   (109750799076201469682301487241367770858047394125059349270356625425759359122063848501713608788990170761459570403227189067068864169285153015741488063215316043979701874886759895536606160714506344468514414552075997690478704928485827173975126387757503450259684807986827081929553854428130160909895789704154940753323447469104874006657239828250463398529061100630880200231504101313625914054639442415547170641653953203117844608408, 1422),
   (827521025034559081404553213799912992269677351702947493498488955710225567780361417702920610268985887541405160840333005565699235836410053738690819996643482971606952136646169612346010451787377837292598685722653022586209435160783136891772452963691576014958023452220676197748836062388101413260614254369328253280058793917050750010195588305008494024909120698756836709745540923904739391971981395813225666638070807151508548347396, 1424),
   (624778373901092106460437676418934309163606400535725357591359161561220303674172870365705060753084345093760896434451419202102923056489590572711569097465829643563248863167858057321237891099470267155912007720603032052588123546391268353288201987587139891293307706426610529300371227103016567011763762048842831226444389407373316257697669170281412988806386127561411715857883397548078240938845953838985378311743459399388954002284, 1427),
   (472332450669225632484090883372714337727686438805008370339067526140282549577674689996473025929331764890883237704445272916789809830706130472969946237684167210533816140554900691334855845671199521969869477836775892231756621401071798875085880702615877757817740626058517560151080647689880524660893404108925180407191958391974227090819437892732748219537627912436427257188559848546347150149767541102272946003678055305938049225727, 1430),
   (357555665156603803790456798713144753659858634175391336346674117288193890030299740327330080628504146022398610942265071598009886041844540768038249301926914578374098818400059823340485875173098038131191194722439350419439762400611351748440011691880219462668029653926297793034368050301239557168296306910456361568244312502724489907750314484798690402189984329714375433691739805349584792663374028614420620124784287866595103263875, 1433),
   (271027194188705683273166253424563723274172844704946632950778980904450968642967203168116201116406142684978147094236924271291493619718161902172992970860601250407566904347245346092088293381208312903442925599609027617935339899663404625317528862445206352702366477676133727120050982128339584333568600638125922068729188877065163350074738379477407324860008121923496578738338772454985272838837513689730830054586490202879088274017, 1436),
   (205709640389227613604333186349243865965097189131054494409641246506478285200012107204600196647352262297898413644525825521910243657366084883749301664883196349059343280399559217683895014676337109493713180530103251962012922983844524110616004406595911621701096156556185498884118695435409744509178567884337574850165454357692458982706726430023352159568746164539933903262399128293333822084677672890505700011431146063985227999979, 1439),
   (156339326695812986339293221625425338133473863739601415751327347344923496752009201475496149451987719346402794369839627396651785179598224511649469265311229225285100893103665005439760211154016203215222017202878471491129821467721838324068163349012892832492833078982700979151930208530911405826975711592096556886125745311846268826857112086817747641272247085050349766479423337502933704784355031396784332008687671008628773279984, 1442),
   (118974227615513682604202141656948682319573610305836677386760111329486781028279002322852569732962654422612526515447956448852008521674248853365246110901845440441961779651889069139657520688206330646783955091390516804749794136936318964615872308598811445527045973105835445134618888692023579834328516521585479790341692182315010577238262298068305955008180031723316172290841159839732549340894178892952876658611317637566496466068, 1445),
   (906583614430214261444020319425948959275150910530475481687112048330689271435485997700136581365175426700307452047713428140252304935157776262643175365072062256167748760947394706844190307644132239528493737796395738052193431323454750510372946991522943214916090315066466091925795931833219678337583295894481356002403694429240380598555558711280491377162331841731669232856209637978762025977613643164300920138618240398256703071438, 1447),
   (691723297810253481481787503721999055926940144734752792527266492876315914105275816245204211581628850572334585912405345671012508665525383288396742803549983501455992304602862161322117204732472898760240721938649948133823588099795974639414558554532005672980976910395713628139382295988746614571576054767489274629834018849510410396697891296707014920774859195241263624669287953777795425820919209734361602065765717423869864443507, 1450),
   (528476599527033659852085652843607278728182270577351133490831600557505358376430723611336017648364441837263623637077684092653556620461392832335111501912187395112378120716586691250097544415609294652823911561128560374241221308244124624512722735662452334157466359542325211898488074135402413532684105842361805817193190401025953543077188950684159399471992425164325409247335996686235705327182276237052263978245008111836576434839, 1453),
   (404284598638180749786845524425359568227059436991673617120486174426491599157969503562672053500998798005506672082364428330879970814652965516736360298962823357260969262348188818806324621477941110409410292344263348686294534300806755337752232892781776035630461765049878787102343376713582846352503340969406781450152790656784854460454049547273381940596074205250708938074212037464970314575294441321344981943357431205554980972652, 1456),
   (309682002556846454336723671709825429261927528735621990714292409610692564955004639729006792981765079272218110815091152101454057644024171585820051989005522691661902454958712635205644660052102890573608283935705725093701613274417974588718210395870840443292933712028207150920395026562604460306017559182565594590817037643097198516707801953211410566496592841222043046564846420698167260964675542052150256168611792303455115425052, 1459),
   (237526095961101230476267056201436104243898414540222066877862278171401197320488558672148210217013815801791290995174913661815262212966539606323979875567235904504679182953332591202729454259962917069957553778686291146869137381478586509546867373632934620005680157125634884755942985373517621054715467893027811051156667872255551262314884098113151904502886709217307016715237204675494289159906140753999246481325244696750073531015, 1462),
   (182420041698125745005773099162702928059313982366890547362198229635636119542135213060209825446666610535775711484294333692274121379558302417656816544435637174659593612508159430043696220871651520309727401302031071600795497508975554439331994142950093788164362360672487591492564212766861532970021479341845358887288320925892263369457830987350900662658216992678891788837302173190779614074807916099071421297657787927104056471819, 1465),
   (140281012065858697909439513256118551677612452440138830921530438589804175927901978843301355768486623502011522131422342609358799340880334559178091922671004987313227488018774601703602393850300019118180371601261894061011737584402201363846303495928622123098394655357142957857781879617716518853946517613879080984324718792011150531113072029272842609584168867370067785615885371183709523223527287480185922977898838915943019426829, 1468),
   (108016379290711197390268425207211284791761588378906899809578437714149215464484523709342043941734700096548872041195203809206275492477857610567130780456673840231185165774456443311773843264731014720998886132971658426979037939989695050161653691865039034785763884625000077550492047305641719517538818562686892357930033469848585908957065462540088809379810027874952194924231735811456332882116011359743160692982105965276124958658, 1471),
   (832806284331383331878969558347599005744481846401372197531849754776090451231175677799027158790774537744391803437615021368980384047004282177472578317320955308182437628121059177933776331571076123498901412085211486472008382517320548836746349964279450958198239550458750597914293684726497657480224291118315940079640558052532597358058974716184084720318335314915881422865826683106328326521114447583619768942892036992278923431255, 1473),
   (642926451503827932210564499044346432434739985421859336494588010687141828350467623260848966586477943138670472253838796496852856484287305841008830460971777497916841848909457685364875327972870767341151890129783267556390471303371463701968182172423736139729040932954155461589834724608856191574733152743339905741482510816555165160421528480894113404085754863115060458452418199358085468074300353534554461623912652558039328888929, 1476),
   (496982147012458991598766357761279792272054008731097267110316532261160633314911472780636251171347450046192275052217389692067258062354087415099825946331184005889718749207010790787048628523029103154710411070322465821089834317506141441621404819283548036010548641173562171808942242122645836087268727070601747138165980861197142669005841515731149661358288509187941734383719268103800066821434173282210598835284480427364401231142, 1479),
   (384664181787643259497445160907230559218569802757869284743384995970138330185741479932212458406622926335752820890416259621660057740262063659287265282460336420558642311886226352069175638476824525841745858168429588545523531761749753475814967330125466179872164648268337120980121295402927877131545994752645752284940469186566588425810521333175909837891315306111466902412998713512341251719790050120431003498510187850780046552904, 1482),
   (298114740885423526110519999703103683394391597137348695676123371876857205893949646947464655265132767910208436190072601206786544748703099335947630593906760725932947791711825422853611119819539007527353040080532931122780737115356058943756599680847236289400927602407961268759594003937269104776948145933300458020828863619589106030003154033211330124365769362236386849370074002972064470082837288843334027711345395584354536078501, 1485),
   (231337038927088656261763519769608458314047879378582587844671736576441191773704926031232572485743027898321746483496338536466358724993605084695361340871646323323967486368376528134402228979962269841225959102493554551277852001516301740355121352337455360575119819468577944557444947055320825306911761244241155424163198168801146279282447529771992176507837025095436195111177426306322028784281736142427205504004026973459119996917, 1488),
   (179748879246347885915390254860985772110015202277158670755309939319894806008168727526267708821422332676995997017676655042834360729320031150808295761857269193222722736908228562360430531917430683666632570222637491886342891005178166452255929290766202815166868099727085062921134723861984281263470438486775377764574804977158490659002461730632837921146589368499153923601384860240012216365386908982665938676611128958377736237604, 1491),
   (139844628053658655242173618281846930701591827371629445847631132790878159074355270015436277463066574822702885679752437623325132647410984235328854102724955432327278289314601821516414953831761071892640139633211968687574769202028613499855112988216105790199823381587672178952642815164623770822980001142711243900839198272229305732703915226432347902652046528692341752561877421266729504332271015188514100290403458329617878792856, 1494),
   (108938965253800092433653248641558759016540033522499338315304652444094085918922755342024860143728861786885547944527148908570278332333156719321177346022740281782949787376074818961287249034941875004366668774272123607620745208380289916387133017820346410565662414256796627404108753013241917471101420890172058998753735454066629165776349961390799016165944245851334225245702511166782283874839120831852484126224294038772327579635, 1497),
   (849723928979640720982495339404158320329012261475494838859376289063933870167597491667793909121085121937707273967311761486848170992198622410705183298977374197907008341533383587898040542472546625034060016439322564139441812625366261347819637538998702002412166831203013693752048273503286956274591082943342060190279136541719707493055529698848232326094365117640406956916479587100901814223745142488449376184549493502424155121152, 1499),
   (663634388533099403087328860074647648176958576212361469149172881758932352600893640992547043023567480233349380968470485721228421544907124102760748156501329248565373514737572582148369663671058914151600872839110922592904055660411050112647136917957986263883902295169553694820349701606067112850455635778750149008608005639083091552076368694800469446679699156877157833351770557525804316908744956283478962800133154425393265149619, 1502),
   (518962091832883733214291168578374460874381606598066668874653193535485099733898827256171787644429769542479215917343919834000625648117371048358905058384039472378122088524781759240025076990768070866551882560184741467650971526441441188090061069843145258357211594822590989349513466655944482249056307178982616524731460409762977593723720319333967107303524740677937425681084575985178975822638555813680548909704126760657533347002, 1505),
   (406347317905147963106789984996867202864640797966286201728853450538284833091642781741582509725588509551761226063280289230022489882475901530865022660714702906872069595314904117484939635283771399488510124044624652569170710705203648450274517817687182737293696678746088744660669044391604529601011088521143388738864733500844411455885673010038496245018659871950825004308289222996395138069125989202111869796298331253594848610703, 1508),
   (318576297237636003075723348237543887045878385605568382155421105222015309143847940885400687624861391488580801233611746756337632067861106800198177766000327078987702562726884828108192674062476777198991937250985727614229837192879660385015221969066751266038258196136933575813964530803017951207192693400576416771269951064662018581414367639870181056094629339609446803377698750829173788246194775534455705920297891702818361310791, 1511),
   (250082393331544262414442828366471951331014532700371179992005567599282017677920633595039539785516192318535928968385221203725041173270968838155569546310256757005346511740604590064931249139044270101208670742023796177170422196410533402236949245717399743840032683967492857013962156680369091697646264319452487165446911585759684586410278597298092129034284031593415740651493519400901423773262898794547729147433844986712413628971, 1514),
   (196564761158593790257752063096046953746177422702491747473716376133035665894845618005701078271415727162369240169150783866127882362190981506790277663399861811006202358228115207791035961823288796299550015203230703795255951846378679254158242107133876198658265689598449385612974255150770106074349963755089654912041272506407112084918478977476300413420947248832424772152073906249108519085784638452514515109883002159555957112371, 1517),
   (154696467031813312932850873656588952598241631666861005261814788016699069059243501370486748599604177276784592013121666902642643419044302445843948521095691245261881255925526668531545301954928282687745861964942563886866434103100020573022536538314360568344055097713979666477410738803656073480513421475255558415776481462542397210830842955273848425362285484831118295683682164218048404520512510462128923391477922699570538247436, 1520),
   (121900816021068890591086488441392094647414405753486472146310052957158866418683879079943557896488091694106258506339873519282403014206910327325031434623404701266362429669315014802857697940483486757943739228374740342850750073242816211541758792191716127855115416998615977184199662177280985902644576122501380031631867392483409002134704248755792559185480962046921216998741545403822142762163858244157591632484603087261584138980, 1523),
   (961797438406233546763672393802583626768099661395008265234386317831983456043415805940754671803291043466498379615021602067138159782092522482594498019178663092991599570090895466794547236750414710520176102511876701305092418077885819909064476870392640248776860640119080059983335334578746978771865705606535888449575433726694097026842816522683203291973444790550208402120070793236156706393472841546403397980303518358493898856550, 1525),
   (759819976340924501943301191104041065146798732502056529535165191087266930274298486693196190724599924338533719895867065633039146227853092761249653435151143843463363660371807418767692317032827621310939120984382594031023010281529797728160936727610185796533719905694073247386834914317210113229773907429163351875164592644088336651205825052919730600659021384534664637674855926656563798050843544821658684404439779503210180096674, 1528),
   (601017601285671281037151242163296482531117797409126714862315666150028141846970102974318186863158540151780172437630848915733964666231796374148475867204554780179520655354099668245244622772966648456952844698646631878539201132690070002975300951539656965058172445404011938682986417224913199564751160776468211333255192781473874291103807616859506905121285915166919728400811037985341964258217243953932019363911865587039252456469, 1531),
   (476005940218251654581423783793330814164645295548028358170954007590822288342800321555660003995621563800209896570603632341261300015655582728325592886826007385902180359040446937250233741236189585577906653001328132447803047297090535442356438353619408316326072576759977455436925242442131254055282919334962823375938112682927308438554215632552729468856058444812200424893442342084390835692508057211514159336218197544935087945524, 1534),
   (377472710593073562083069060548111335632563719369586488029566528019522074655840654993638383168527900093566447980488680446620210912414877103562195159253023857020429024719074421239435356800298341363279975830053209031107816506592794605788655614420190794846575553370662122161481717256610084465839355032625518937118923357561355591773492996614314468802854346736074936940499777272921932704158889368730728353621030653133524740800, 1537),
   (299713332210900408293956834075200400492255593179451671495475823247500527276737480064948876235811152674291759696508012274616447464457412420228382956446900942474220645626945090464111673299436883042444300809062247970699606306234678916996192557849631491108180989376305724996216483501748407065876447895904662036072425145903716339868153439311765688229466351308443499930756823154700014567102158158772198312775098338588018644195, 1540),
   (238272099107665824593695683089784318391343196577664078838903279481762919185006296651634356607469866376061948958723869758320075734243642874081564450375286249267005413273421346918968780273052322018743219143204487136706187013456569739011973083490457035431003886554163051371992104383889983617371776077244206318677577990993454490195181984252853722142425749290212582444951674407986511580846215736223897658656203179177474822135, 1543),
   (189664590889701996376581763739468317439509184475820606755767010467483283671265012134700947859546013635345311371144200327622780284457939727768925302498727854416536308965643392147499149097349648326919602437990771760818124862711429512253530574458403800203079093697113788892105715089576426959427933757486388229667352080830789774195364859465271562825370896435009215626181532828757263218353587726034222536290337730625269958420, 1546),
   (151162678939092491112135665700356248999288820027229023584346307342584177085998214671356655444058172867370213162801927661115355886712977963031833466091486099969979438245617783541556821830587669716554923143078645093372045515581009321266063867843347828761854037676599689747008254926392412286664063204716651419044879608422139450033705792993821435571820604458702344854066681664519538785027809417649275361423399171308340156861, 1549),
   (120627817793395807907484261228884286701432478381728760820308353259382173314626575307742611044358421948161430103915938273570053997596956414499403105941005907776043591720002991266162343820808960433810828668176758784510892321433645438370318966538991567351959522065926552418112587431261145004757922437363887832397813927520867281126897222809069505586312842358044471193545211968286591950452191915284121738415872538704055445175, 1552),
   (963816264169232505180799247218785450744445502270012798954263742542463564783866336708863462244423791365809826530288346805824731440799681751850230816468637203130588297842823900216637127128263593866148521058732302688242029648254827052578848542646542623142156581306753153820719573575776548588015800274537463780858533280891729576203908810244465349634639610440775324836426243626609869684113013403120132689942821584245403006946, 1554),
   (771053011335386004144639397775028360595556401816010239163410994033970851827093069367090769795539033092647861224230677444659785152639745401480184653174909762504470638274259120173309701702610875092918816846985842150593623718603861642063078834117234098513725265045402523056575658860621238870412640219629971024686826624713383660963127048195572279707711688352620259869140994901287895747290410722496106151954257267396322405557, 1557),
   (617613462079644189319856157617797716837040677854624201569892206221210652313501548563039706606226765507210936840608772633172487907264436066585627907193102719766080981257681555258821071063791310949427972294435659562625492598601693175292526146127904512909493937301367420968317102747357612335200524815923606790774148126395420312431464765604653396045877062370448828155181936915931604493579618988719381027715360071184454246851, 1560),
   (495325996587874639834524638409473768903306623639408609659053549389410943155428241947557844698193865936783171346168235651804335301626077725401673581568868381252396946968660607317574498993160631381441233780137398969225645064078557926584605969194579419353414137715696671616590316403380805092830820902370732646200866797369127090570034742014932023628793404021099960180455913406577146803850854428952943584227718777089932305974, 1563),
   (397746775260063335787123284642807436429355218782445113556220000159696987353808878283888949292649674347236886590973093228398881247205740413497543885999801310145674748415834467676012322691507986999297310725450331372288192986455082015047438593263247273740791552585704427308122024071914786489543149184603698314899296038287409053727737897837990414973921103428943268024906098465481448883492236106449213698134858178003215641697, 1566),
   (319788407309090921972847120852817178889201595901085871299200880128396377832462338140246715231290338175178456819142366955632700522753415292452025284343840253357122497726330912011513907443972421547435037823262066423319707161109885940098140628983650808087596408278906359555730107353819488337592691944421373445179034014783076879197101269861744293639032567156870387492024503166247084902327757829585167813300425975114585375925, 1569),
   (257429667883818192188141932286517829005807284700374126395856708503359084155132182202898605761188722231018657739409605399284323920816499310423880353896791403952483610669696384169268695492397799345685205447725963470772364264693458181779003206331838900510515108664519619442362736419824688111762117015259205623369122381900376887753666522238704156379421216561280661931079725048828903346373845052816060089706842909967241227619, 1572),
   (207488312314357462903642397422933370178680671468501545875060507053707421829036538855536276243518110118201038137964141951823165080178098444201647565240813871585701790199775285640430568566872626272622275590867126557442525597342927294513876584303462153811475177583602813270544365554378698618080266314298919732435512639811703771529455216924395550041813500548392213516450258389356096097177319112569744432303715385433596429461, 1575),
   (167443068037686472563239414720307229734195301875080747521173829192341889416032486856417774928519114865388237777337062555121294219703725444470729585149336794369661344691218655511827468833466209402006176401829771131856118157055742326672698403532893958125860468309967470309329303002383609784790774915639228224075458700328044943624270360057987208883743494942552516307775358520210369550422096523843783756869098316044912318575, 1578),
   (135293998974450669831097447094008241625229803915065243997108453987412246648154249379985562142243444811233696124088346544538005729520610159132349504800664129850686366510504673653556594817440697196820990532678455074539743470901039799951540310054578318165695258394453716009938076825925956706110946131836496405052970629865060314448410450926853664778064743913582433176682489684329978596741053991265777275550231439364289153409, 1581),
   (109452845170330591893357834699052667474810911367287782393660739275816507538356787748408319773074946852288060164387472354531246635182173618738070749383737281049205270506998280985727285207309524032228181340936870155302652467958941198160796110834153859396047464041113056252039904152174098975243755420655725591687853239560833794388764054799824614805454377826088188439936134154622952684763512678934013815920137234445709925108, 1584),
   (886568045879677794336198461062326606545968382075031037388651988134113711060689980762107390161907069503533287331538526071703097744975606311778373070008271976498562691106686075984391010179207144661048268861588648257951484990467423705102448497756646261107984458733015755641523223632610201699474418907311377292671611240442753734548988843878579379924180460391314326363482686652445916746584452699365511908953111599010250393373, 1586),
   (719006685208418691206656951921546877908780357862850171322196762376766219670219574398069093421306633367365496025877744644151212271175216718852260559776708572940334342487522407623341109255336994320110146046748393737198654327269080624838085731680640117758575396032475777825275334366046873578273753733829526984356676715999073278719229952385527877118510353377355918680784458875133638481479991139185430158160973506797313069025, 1589),
   (583833428389235977259805444960296064861929650584634339113623771049934170372218294411232103858100986294300782773012728651050784364194275975708035574538687361227551486099868194990152980715333639387929438589959695714605307313742493467368525614124679775619963221578370331594123571505230061345558288031869575911297621493391247502320014721337048636220230406942413005968796980606608514446961752805018569288426710487519418212048, 1592),
   (474656577280448849512221826752720700732748805925307717699376125863596480512613473356331700436636101857266536394459348393304287688089946368250632922099952824677999358199192842526994373321566248822386633573637232615974114846072647188970611324283364657579030099143215079586022463633752039873938888169909965215884966274127084219386171968447020541247047320844181773852631945233172722245379905030480096831490915626353287006395, 1595),
   (386370453906285363502948566976714650396457528023200482207292166452967535137267367312054004155421786911814960625089909592149690178105216343756015198589361599287891477574142973816973419883754926541422719728940707349402929484703134811822077617966658831269330500702577074783022285397874160457386254970306711685730362547139446554580343982315874720575096519167163963916042403419802595907739242694810798820833605319851575623206, 1598),
   (314891919933622571254903082086022440073112885338908392998943115659168541136872904359324013386668756333129192909448276317601997495155751320161152386850329703419631554222926523660833337205260265131259516579086676489763387530033054871634993258642826947484504358072600315948163162599267440772769797800799970023870245475918648941982980345587437897268703663121238630591574558787139115664807482796270801038979388335679034132913, 1601),
   (256951806665836018144000914982194311099660114436549248687137582377881529567688289957208394923521705167833421414109793475163229956047093077251500347669869037990419348245908043307240003159492376347107765528534728015646924224506972775254154499052546789147355556187241857813701140681002231670580155005452775539478120308349617536658111961999349324171262189106930722562724839970305518382482905961756973647807180881914091852457, 1604),
   (209929626045988026823648747540452752168422313494660736177391404802729209656801332895039258652517233122119905295327701269208358874090475044114475784046283004038172607516906871382015082581305271475587044436812872788783537091422196757382644225725930726733389489404976597833793831936378823274863986639454917615753624291921637527449677472953468397847921208500362400333746194255739608518488534170755447470258466780523813043457, 1607),
   (171722434105618205941744675488090351273769452438632482193106169128632493499263490308142113577759096693894082531578059638212437559006008586085641191349859497303225192948829820790488337551507712067030202349312929941224933340783356947539002976643811334467912602333270857028043354523957877438838741071074122609686464670791899497453836172875937149439599548553296443473004386901194999768123620951677956030671425826468479069548, 1610),
   (140640673532501310666288889224745997693217181547240002916153952516350012175896798562368391020184700192299253593362430843695986360825921032004140135715534928291341433025091623227409948454684816182897735724087289621863220406101569340034443437871281482929220421310948831905967507355121501622408928937209706417333214565378565688414691825585392525391032030265149787204390592872078704810093245559424245989119897751877684357960, 1613),
   (115325352296651074746356889164291718108438088868736802391246241063407009984235374821142080636551454157685387946557193291830708815877255246243394911286738641198899975080575131046476157732841549269976143293751577489927840733003286858828243619054450816001960745474978042162893356031199631330375321728511959262213235943610423864500047296980021870820646264817422825507600286155104537944276461358727881711078316156539701173527, 1616),
   (946821142355505323667590060038835005670276709612329147632131639130571551970572427281576482026087438634597035041234556925930119378352265571658272221664124244242968795411521825891569254986629119506504136441700451192307572417956985110979880112437041199376097720349569726157354453016148973222381391391083185542770667097041579927545388308205979559437505834151041397417398349333408256522509747755155908847952975645190946634657, 1618),
   (778286979016225376054759029351922374660967455301334559353612207365329815719810535225455868225443874557638762803894805793114558129005562299903099766207910128767720349828270940882869927599009136234346400155077770880076824527560641761225461452423247865887152326127346314901345360379274455988797503723470378516157488353768178700442309189345315197857629795672156028677101443152061586861503012654738157073017345980346958133688, 1621),
   (640530183730353484493066681156632114345976215712998342348022846661666438337404070490550179549540308760936701787605425167733281340171577772820251107589110035975833847908666984346601950413984519120867087327629005434303226586182408169488554775344332993625126364402806017163807231592142877278780345564416121518797612915151211070464020462831194407836829321838184411601254487714146685987016979414849503271093275741825546544025, 1624),
   (527796871393811271222286945273064862221084401747510634094770825649213145190020954084213347948821214419011842272986870338212223824301380084803886912653426669644087090676741595101600007141123243755594479957966300477865858707014304331658569134883730386747104124267912158142977158831925730877715004745078884131489233042084597922062352861372904192057547361194663955159433697876456869253301991037835990695380859211264250352277, 1627),
   (435432418899894298758386729850278511332394631441696273128185931160600844781767287119476012057777501895684769875214168029025084655048638569963206702939077002456371849808311815958820005891426676098365445965322197894239333433286801073618319536279077569066360902521027530467956156036338727974114878914690079408478617259719793285701441110632645958447476572985597763006532800748076917133974142606214692323689208849293006540628, 1630),
   (359667178011312690774427438856330050360557965570841121603881579138656297789739779160687185959724216565835619916926902791974719925070175458789608736627677604028963147941665559981985324866318434457249858367356135460641689415894897686808731936966518072048814105482368740166531784886015789306618889983534005591403337856528549253989390357382565561677615649286103752243396093417911533552662641792733335859367286509516023402559, 1633),
   (297444756215355595270451491934184951648181437527085607566410065947668758272114797365888302788691927099946057671298548608963093378033035104419006425191089378531952523347757418105101863664445345296145632869803524025950677146945080386990821311871310445584369265233918948117721786100735057756573822016382622624090560407349110233049225825555381719507388141959607803105288569256612838248052004762590468755696745943369751353916, 1636),
   (246284258146314432883933835321505139964694230272426883064987534604669731849311052218955514709036915638755335751835198248221441317011353066458937320058222005424456689331943142191024343114160745905208584016197317893487160677670526560428400046229445048943857751613684889041473638891408627822443124629564811532746984017285063272964758983559856063752117381542555260971178935344475430069387059943424908129716905641110154121043, 1639),
   (204169650003294664860781149481527761030731516895841886060874666187271207703078862289514121693791603064528173338271379347775574851802411692094459038328266042496874595456180864876359180441639258355417916149427576533700856201788866518595143638324209945574458076087744773015381646640977752464805350317909228760647249750329317453287785197371120676850505309298778311345107337400570131527521872693099248839535314776480317766344, 1642),
   (169460809502734571834448354069668041655507159023548765430525972935435102393555455700296721005847030543558383870765244858653727126996001704438401001812460815272405914228630117847378119766560584434996870404024888522971710647484759210433969219809094254826800203152828161602766766712011534545788440763864659871337217292773333486228861713818030161785919406717985998416439090042473209167843154335272376536814311264478663746066, 1645),
   (140821932696772429194426582231894142615726449148569024072767083509346570089044583686946575155858882381697016996605918477541247242533677416388311232506154937491369314723991627931171217526011845665482399305744682362589491548059834903870628421661357325761070968820000202291899183137681585207550194274771532353081227570294640127056184084182783064444099026982646364684060883825295236818477661252611344902092692660781769572981, 1648),
   (117163848003714661089762916416935926656284405691609428028542213479776346314085093627539550529674590141571918141176124173314317705788019610435074945445120907992819269850361034438734452981641855593681356222379575725674456967985782640020362846822249295033211046058240168306860120370551078892681761636609914917763581338485140585710745158040075509617490390449561775417138655342645637032973414162172638958541120293770432284720, 1651),
   (975974853870943126877725093753076269046849099411106535477756638286536964796328829917404455912189335879294078115997114363708266489214203354924174295557857163580184517853507416874657993337076657095365697332421865794868226543321569391369622514029336627626648013665140601996144802686690487176039074432960591264970632549581221078970507166473828995113694952444849589224764999004238156484668539970898082524647532047107700931717, 1653),
   (813963028128366567816022728190065608385072148908862850588449036330971828640138244151115316230765906123331261148741593379332694252004645598006761362495252874425873887889825185673464766443121932017534991575239836072920100937130188872402265176700466747440624443396727262064784765440699866304816588077089133114985507546350738379861402976839173381924821590339004557413454009169534622508213562335729000825556041727287822577052, 1656),
   (679659128487186084126378978038704783001535244338900480241354945336361476914515433866181289052689531612981603059199230471742799700423879074335645737683536150145604696388004030037343079980006813234641717965325263120888284282503707708455891422544889734112921410236267263824095279142984388364521851044369426151012898801202866547184271485660709773907226027933068805440234097656561409794358324550333715689339294842285331851839, 1659),
   (568195031415287566329652825640357198589283464267320801481772734301198194700534902712127557648048448428452620157490556674376980549554362906144599836703436221521725526180371369111218814863285695864160476219011919969062605660173099644269125229247527817718402298957519432556943653363534948672740267473092840262246783397805596433446050962012353370986440959352045521348035705640885338588083559324078986316287650488150537428137, 1662),
   (475579241294595693017919415060978975219230259591747510840243778610102888964347713570050765751416551334614843071819595936453532719977001752443030063320776117413684265412970835946090148040570127438302318595312977014105400937564884402253257816880180783430302724227443765050161837865278752039083603874978707299500557703963284214794344655204339771515651082977662101368305885621421028398225939154254111546732763458581999827351, 1665),
   (398535404204871190749016469821100381233714957537884414084124286475266220952123383971702541699687070018407238494184821394748060419340727468547259193062810386392667414416069560522823544057997766793297342982872274737820325985679373129088230050545591496514593682902597875112035620131103594208752060047232156716981467355921232171997660821061236728530115607535280840946640332150750821797713337011264945476162055778291715855320, 1668),
   (334371204127886929038424818179903219855086849374285023416580276352748359378831519152258432486037451745443673096621065150193622691826870346111150462979697914183447960695082361278648953464660126339576470762629838505031253501984994055305025012407751265575744099955279617218997885289995915541142978379627779485547451111617913792306037428870377615236766994722100625554231238674479939488281489752451289254499964797986749602613, 1671),
   (280871811467425020392276847271118704678272953474399419669927432136308621878218476087897083288271459466172685401161694726162643061134571090733366388902946247914096286983869183474065120910314506125244235440609064344226252941667395006456221010422511063083625043962434878463958223643596569054560101838887334767859858933759047585537071440251117196798884275566564525465554240486563149170156451392059082973779970430308869666195, 1674),
   (236213193444104442149904828555010830634427553871969911942408970426635550999581738389921447045436297411051228422376985264702782814414174287306761133067377794495754977353433983301688766685574499651330402005552223113494278723942279200429681869765331804053328661972407732788188866084264714574885045646504248539770141363291359019436677081251189562507861675751480765916531116249199608452101575620721688780948955131889759389270, 1677),
   (198891508879935940290219865643319119394188000360198665855508353099227133941647823724313858412257362420105134331641421592879743129736734749912292874042732102965425690931591413940021941549253728706420198488674971861562182685559399086761792134342409379012902733380767311007655025242950889672053208434356577270486459027891324294365682102413501611631619530982746804901719199881826070316669526672647661953559020221051177405766, 1680),
   (167665541985785997664655346737318017649300484303647475316193541662648473912809115399596582641532956520148628241573718402797623458368067394176062892818023162799853857455331561951438496726020893299512227325953001279296920003926573430140190769250651106507877004239986843179453186279807599993540854710162594639020084960512386380150270012334581858605455264618455556532149285500379377276952410985041979026850254046346142553060, 1683),
   (141509717436003382028969112646296406896009608752278469166867349163275311982410893397259515749453815303005442235888218331961194198862648880684597081538411549403076655692299838287014091236761633944788319863104333079726600483314027975038321009247549533892648191578548895643458489220157614394548481375377229875332951706672454104846827890410387088663004243337976489713133996962320194421747834871375430298661614415116144314783, 1686),
   (119575711233422857814478900186120463827128119395675306446002910042967638625137204920684290808288473931039598689325544490507209098038938304178484533899957759245599774059993363352526907095063580683346130284323161452368977408400353638907381252814179356139287721883873816818722423391033184163393466762193759244656344192138223718595569567396777089920238585620590133807598227433160564286376920466312238602369064180773141945992, 1689),
   (101161051703475737711049149557457912397750389008741309253318461896350622276866075362898910023812048945659500491169410638969098896940941805334997915679364264321777408854754385396237763402423789258110826220537394588704154887506699178515644539880795735293837412713757249028639170188814073802230872880815920320979267186548937265931851854017673418072521843435019253201228100408453837386274874714500153857604228296934078086309, 1692),
   (856834107928439498412586296751668518008945794904038889375607372262089770685055658323753767901688054569735969160204908112068267657089777091187432345804215318805454652999769644306133856018529495016198698087951732166324191897181742042027509252790339877938802885685523899272573771499255205104895493300510845118694393070069498642442785203529693851074260013894613074614402010459604002661748188831816303173907813675031641391036, 1694),
   (726595323523316694653873179645414903271586034078624978190515051678252125540927198258543195180631470275136101847853762079033890973212130973326942629241974590347025545743804658371601509903713011773736495978583068877042914728810117251639327846366208216492104847061324266583142558231368413928951378318833196660652845323418934848791481852593180385710972491782631887273012904869744194257162464129380225091473825996426831899599, 1697),
   (616879429671295873761138329518957252877576542932752606483747278874836054584247191321503172708356118263590550468827844005099773436257099196354574292226436427204624688336490154957489681908252346995902285085817025476609434604759789546641789341564910775801797015155064302329088031938431783425679720192689383964894265679582675686623968092851610147468615645523454472294787956234412820924330932045843811102661278270966380282759, 1700),
   (524347515220601492696967580091113664945940061492839715511185187043610646396610112623277696802102700524051967898503667404334807420818534316901388148392470963123930985086016631713866229622014494946516942322944471655118019414045821114645520940330174159431527462881804656979724827147667015911827762163785976370160125827645274333630372878923868625348323298694936301450569762799250897785681292238967239437262086530321423240345, 1703),
   (446219735452731870285119410657537728868994992330406597900018594174112660083515205842409319978589398145968224681626620961088921115116572703683081314281992789618465268308200153588500161408334335199485917916825745378505434521352993768563338320220978209676229870912415763089745827902664630540965425601381865891006267079326128457919447319964212200171423127189390792534434868142162514015614779695361120761110035637303531177534, 1706),
   (380179214605727553482921737880222144996383733465506421410815842236343986391154955377732740621758167220364927428745881058847760790079319943537985279768257856754932408598586530857402137519900853589962002065135535062486630212192750690815964248828273434644147850017378230152463445373070265220902542612377349739137339551585861446147369116609508794546052504365360955239338507657122461941303792300447674888465750362982608563259, 1709),
   (324292870058685603120932242411829489681915324646076977463425913427601420391655176937206027750359716638971283096720236543197139953937659911837901443642323951811957344534594310821364023304475428112237587761560611408301095571000416339266017504250517239751458116064823630320051318903228936233429868848357879327484150637502739813563705856467911001747782786223652894819155747031525460035932134832281866679861285059624165104460, 1712),
   (276946111030117505065276135019702384188355687247749738753765730067171613014473521104373947698807198009681475764599082007890357520662761564709567832870544654847411572232543541441444875902022015607850899948372762142689135617634355553733178948629941722747745231119359380293323826343357511543349107996497628945671464644427339800783404801423595995492606499434999572175559007964922742870686043146768714144601537440919036999209, 1715),
   (236788924930750466830811095441845538481044112596826026634469699207431729127374860544239725282480154298277661778732215116746255680166661137826680497104315679894536894258824727932435368896228823344712519455858711631999210953077373998441868001078600172949322172607052270150791871523570672369563487337005472748549102270985375529669811105217174576146178557016924634210102951810008945154436566890487250593634314511985776634323, 1718),
   (202691319740722399607174297698219780939773760382883078799106062521561560133032880625869204841803012079325678482594776139934794862222661933979638505521294221989723581485553967110164675775171872783073916654215057156991324575834232142666239008923281748044619779751636743249077842024176495548346345160476684672758031543963481453397358306065901437181128844806487486883848126749367657052197701258257086508150973222259824798981, 1721),
   (173706461017799096463348373127374352265386112648130798530833895580978257034009178696369908549425181351982106459583723151924119196924821277420550199231749148245193109333119749813411127139322294975094346572662303983541565161489936946264966830647252458074239151247152688964459710614719256684932817802528518764553633033176703605561536068298477531664227419999159776259457844624208082093733429978326323137485384051476669852727, 1724),
   (149040143553271624765552904143287194243701284652096225139455482408479344535179875321485381535406805600000647342322834464350894270961496656026832070940840769194375687807816745339906747085538529088630949359344256817878662908558365899895341540695342609027697191770057007131506431707429122235672357674569469099987017142465611693571797946600093722167907126359279088030614830687570534436423282921403985251962459516166982733639, 1727),
   (128025483312260325673609944659083699855339403516150657394792259388883756955719512901155942738914446010400556067055314804877418178755925627527048748938182220737968715826914584246979895746477596487133985499676716606557771438451636308010098383457299301154791887730478969125964024836681616000442555242455173956888847725377960444778174436129480507342232221542620736618298139560623089080887600029486023331435752724387438168196, 1730),
   (110101915648543880079304552406811981875591887023889565359521343074440030981918781094994110755466423568944478217667570732194579633730096039673261924086836709834653095611146542452402710341970732978935227529721976281639683437068407224888684609773277398993121023448211913448329061359546189760380597508511449602924409043825045982509230015071353236314319710526653833491736400022135856609563336025357980065034747342973196824649, 1733),
   (947977493733962807482812196222651163948846147275689157745478763870928666754320705227899293604565906928611957454117784004195330646416126901586785166387664071676363153211971730515187336044368010948632309030906215784917674393158986206291574490147918405330772011889104574790113218305692693836876944548283581081179161867333645909404470429764351364666292707634489506363850404190589725408340323178332208359949174622999224660226, 1735),
   (817156599598675940050184113143925303323905378951644053976602694456740510742224447906449191087135811772463507325449529811616375017210701389167808813426166429785025038068719631704091483670245225437721050384641158006599035326903046109823337210507505665395125474248408143469077594179507102087387926200620446891976437529641602773906653510456870876342344313980929954485639048412288343301989358579722363606276188525025331657115, 1738),
   (705206145453657336263308889643207536768530342035268818581808125316167060770539698543265651908198205559636006821862944227424931639852835298851819005986781628904476607853305042160630950407421629552753266481945319359694967487117328792777540012667977389235993284276376227813813963776914629101415780311135445667775665588080703193881441979524279566283443142965542550721106498779804840269616816454300399792216350697096861220090, 1741),
   (609298109671959938531498880651731311768010215518472259254682220273168340505746299541381523248683249603525509894089583812495140936832849698207971621172579327373467789185255556426785141152012287933578822240400755926776451908869372076959794570945132464299898197614789060831135264703254239543623234188821025056958175068101727559513565870308977545268894875522228763823036014945751381992948929416515545420474927002291688094158, 1744),
   (527042864866245346829746531763747584679328836423478504255300120536290614537470549103295017610111010907049566058387489997808296910360414988949895452314281118178049637645246056309169147096490629062545681237946653876661630901172006846570222303867539581619411940936792537618932003968314917205234097573330186674268821433907994338979234477817265576657594067326727880706926152928074945423900823945285946788710811856982310201447, 1747),
   (456419120974168470354560496507405408332298772342732384685089904384427672189449495523453485250356135445504924206563566338101985124372119380430609461704167448342190986200783084763740481385560884768164559952061802257188972360414957929129812515149289277682410740851262337577995115436560718299732728498503941659916799361764323097556017057789751989385476462304946344692198048435712902737098113536617629919023563068146680634453, 1750),
   (395715377884604063797403950471920489024103035621148977521972947101298791788252712618834171712058769431252769287090612015134421102830627502833338403297513177712679585036078934490162997361281287093998673478437582556982839036479768524555547450634433803750650112318044446680121765083498142765868275608202917419147865046649668125581066789103714974797208092818388480848135707993763086673064064436247485139793429180083172110071, 1753),
   (343480948003836327376146629009626984472921434919157312489072518083927351272203354553148061046067011866327403741194651229136677517256984672459337734062241438254605879811316515137461481709592157197590848579283821659461104283664439079314215187150688541655564297492062579718345692092476387920773663227920132319820346860491911933004365972942024598123976624566361201376181794538586359232219607930662817101340696528312193391541, 1756),
   (298484943815333768489871420609365849506968726944747704553004018214932868255544715106685665049032233311838513851098151918119772762496319680367164490900087809843252509556034051654454027605635584604706447415397641022071699622504397559924052997633948342698685374520602381775242406428361981103152313345062594985923881421767471469780794030486619375769735686748167883995901979454031546172798839291745988061065065283103296057249, 1759),
   (259681901119340378586188135930148289071062792441930502961113495846991595382323902142816528592658042981299507050455392168764202303371798121919433107083076394563629683313749624939375004016902958606094609251395947689202378671578825877133926107941535058147856275832924072144460893592674923559742512610204457637753776836937700178709290806523358856919670047470906059076434722125007445170334990183819009613126606796299867569807, 1762),
   (226182935874945469748569866395159159780895692216921468079129854882729679578004118766393196404205155436711870640946646578993620206236836164191826236269359539664921454166275923322195628498722476945908404657965870437295271822945157338983649640017077035646782816250476866837825438319219858420535728483488082602483539624972736855655792292481845564377032611347159177455574642970881484743361776450106357373033274519577184653302, 1765),
   (197231520082952449620752923496578787328941043613155520165001233457740280592019591564294867264466895540812751198905475816882436819838521135175272478026881518587811508032992605136954588050885999896832128861746239021321477029608177199593742486094891175083994615770415827882583782214359716542707155237601608029365646552976226538131850879044169332136772437094722802741261088670608654696211469064492743629285015381071305017679, 1768),
   (172183117032417488518917302212513281338165531074284769104046076808607264956833103435629419121879599807129531796644480388138367343719028951008012873317467565727159446512802544284561355368423477909934448496304466665613649446847938695245337190360839995848327299567573017741495641873136032541783346522426203809636209440748245767789105817405559826955402337583693006793120930409441355549792612493302165188365818427675249280434, 1771),
   (150488044286332884965533722133736607889556674158924888196936271130722749572272132402740112312522770231431210790267275859232933058410431303181003251279466652445537356252189423704706624592002119693282707985770103865746329616545098419644424704375374156371438059822058817506067190997120892441518644860600502129622047051213966801047678484412459288759021643048147687937187693177851744750518743319146092374631725305788167871099, 1774),
   (131677038750541274344842006867019531903362089889059277172319237239382405875738115852397598273457423952502309441483866376828816426109127390283377844869533320889845186720665745741618296518001854731622369487548840882528038414476961117188871616328452386825008302344301465317808792122480780886328814253025439363419291169812220950916718673860901877664143937667129226945039231530620276656703900404252830827802759642564646887212, 1777),
   (115349085945474156326081598015509109947345190742815926802951651821698987547146589486700296087548703382392023070739866946102043189271595593888238992105711189099504383567303193269657627749769624744901195671092784613094561651081817938657451535903724290858707272853608083618400501899293164056424041285650284882355299064755505553003045558302150044833790089396405202803854366820823362351272616754125479805155217446886630673198, 1780),
   (101161148374180835097973561459601489423821732281449567806188598647630012078847558979836159668780212866357804233038863311731491876991189335839985596076708712840265344388524900497489739536547960901278348603548372105683930567998754332202584996987566203083086278292614289333337240165680104877483884207515299841825597279790578369983670954630985589319233908400647362858980279701862088782066084893368045789121125700919575100394, 1783),
   (888194882725307732160207869615301077141154809431127205338335896126191506052281567842961481891890268966621521166081219877002498679982642368675073533553502498737529723731248626367959913130891096713223900739154707087904910387029063036738696273550831263069497523409153460346700968654671320824308503341984332611228744116561278088456630981660053474222873715757683845901846855782349139506540225363771442028483483654073869381462, 1785),
   (780723301915545496568822717391849646807075077489960813492397252694922333819955498133963142582971546421660317104985392271885196339704742642065389635993528696390288627159767542577436763642053274010923808749716987530268416230198546409293314024451180680238088323076645891644750151447456091004567174437604228365270066078457363439753378632879187003841905996151004100547723386232684893626248858094755097543036982131930931186305, 1788),
   (687036505685680036980563991304827689190226068191165515873309582371531653761560838357887565473014960851061079052387145199258972778940173525017542879674305252823453991900595437468144352005006881129612951699750949026636206282574720840178116341517038998609517724307448384647380133273761360084019113505091720961437658149042479826982973196933684563380877276612883608481996579884762706391098995123384485837872544276099219443948, 1791),
   (605279161509084112579876876339553194176589166076416819484385742069319386963935098593298945181726180509784810645153074920547155018246292875540455276993062927737462966864424580409435174116411062275189010447480586092466497734948329060196920496876511357774985115114862026874341897414183758234020838997985806167026576829306424727571999386498576100338552880695950459072638986878475944330558214703701732023165711507243412330118, 1794),
   (533856220451012187295451404931485917263751644479399634785228224505139699302190756959289669650282491209630202989025012079922590726093230316226681554307881502264442336774422479921121823570674556926716707214677876933555451002224426231093683878245083017557536871531308307703169553519310074762406379996223481039317440763448266609718503458891744120498603640773828304902067586426815782899552345368664927644432157549388689675164, 1797),
   (471395042658243761381883590554502064943892702075309877515356522238038354483834438395052778301199439738103469239309085666571647611140322369228159812453859366499502583371815049770350570212905633766290852470560565332329463234964168362055722864490408304503305057562145235701898715757550796015204833536665333757717300194124819416381438554201410058400267014803290393228525678814878336300304720960531131110033595116110212983170, 1800),
   (416713217709887485061585094050179825410401148634573931723575165658425905363709643541226656018260304728483466807549231729249336488248044974397693274209211679985560283700684503996989904068208580249401113583975539753779245499708324832057259012209520941180921670884936388360478464729674903677441072846412155041822093371606340364081191681914046491625836041086108707614016700072352449289469373329109519901269698082641428277122, 1803),
   (368791197673250424279502808234409145488205016541597929575364021607706926246883034533985590576160369684707868124681070080385662792099519802341958547675152336787220851075105786037336065100364593520719985521818352682094632267241867476370674225805426032945115678733168703699023441285762289754535349469074757212012552633871611222211854638493931145088864896361206206238404779564031917621180395396261925112623682803137664025253, 1806),
   (326749001138499875911639488095686502902549644655855765603772523144428336654738368597111233250478087540651171158467428091221697233800174544874975273240184970393477674052543726429079753678923029859357907172331060476335844188776294584064417364063607465189372491357587471477334768979185388722518319629600234889843121633610247542879703209705622994548734298176028698727226634693732279012365830321088065649784582963579970326374, 1809),
   (289826364009849389933624225940873928074561534809744064090546228029107934612752932945637663893174063648557588817560608716913645446380754821304103067364044068739014696884606285342593741513204727485250463661857650642509893795444573296065138201924419821622973399834180087200395940084537439796873749511455408347290848889012289570534296747008887596164727322482137455771050024973340531483968491494805114231358925088695433679494, 1812),
   (257365811240746258261058312635496048130210642911052728912405050489847845936124604455726245537138568519919138869993820540619317156386110281318043523819271133040245050833530381384223242463725798006902411731729593770548785690354781086905842723308884801601200379052751917433951594795069246539623889566172402612394273813442913138634455511343892185394277862364138060724692422176326391957764020447386941437446725478761545107391, 1815),
   (228798206193023423594080839932955986787757261547925876003128089885474735037214773361140632282516187414208114455424506460610572952027252040091740692675332037272777850191008509050574462550252234428136244029507608862017870478725400386259294181021598588623467136977896454598782967772816560173725637824327265922418509420150749780246030949584720152815513019641718735984251563314754162450452214177726990937890138950619013600470, 1818),
   (203630403511790846998731947540330828241103962777654029642783999998072514183121148291415162731439406798645221865327810749943409927304254315681649216481045513172772286669997573055011271669724488641041257186261771887195904726065606343770771821109222743874885751910327844592916841317806738554615817663651266670952473383934167304418967545130400936005806587481129675025983891350131204580902470618177021934722223666050922104419, 1821),
   (181434689529005644675870165258434767962823630834889740411720543998282610137160943127650909993712511457592892682007079378199578245228090595272349451884611552236940107422967837592015043057724519379167760152959238751491551110924455252299757692608317464792523204952102109532288905614165804052162693538313278603818653785085343068237300082711187233981173669445686540448151647192966903281584101320795726543837501286451371595037, 1824),
   (161839743059873035050876187410523813022838678704721648447254725246468088242347561269864611714391560220172860272350314805354023794743456810982935711081073504595350575821287311132077418407490271286217642056439640966330463590944614085051383861806619178594930698817275081702801703807835897214529122636175444514606239176296126016867671673778379012711206913145552394079751269296126477727173018378149788077103051147514623462773, 1827),
   (144522890552466620300432435357597765029394940083316432063398469645096002800416372213989098260951663276614364223208831121181143248705906932207761589995398639603648064208409568840945134637888812258592354356400599382933103986713540377950885788593310926485273114043826647960601921500397456212574506514104671951543371584432440533062830804684092458351107773438978287913217883481440944610365505411687760752853024674730558752256, 1830),
   (129203464153905158548586597209692401936279076434484890264678231862715826503572236759306253845290786969293241615548695022335942064343080797393738861455886383805661369402318154543804950366272598159181564794622135848342194964121905097888091895002419968277834163955181023276778117821355325854041608823609576724679774196482601836558170739387578657765890349454446589394416787832408204481666761838048858113050604059209119524517, 1833),
   (115637100417745116900985004502674699732969773408863976786887017517130664720697151899579097191535254337517451245916082044990668147587057313667396281003018313506066925615074748316705430577813975352467500491186811584266264492889105062609842246027165871608661576739887015832716415450113016639367239897130571168588397905851928643719562811751882898700471862761729697508003025110005343011091751845053728011180290632992161974443, 1836),
   (103610841974299624743282564034396530960740916974342123201050767695349075589744648102022871083615587886415636316340809512311638660238003353045987067778704408901435965351106974491768065797721321915810880440103383179502572985628638136098418652440340620961360772758938766186113908243301262908873046947828991767055204523643328064772728279329687077235622789034509808967170710498564787337938209653168140298017540407160977129101, 1839),
   (929389252509467633947244599388536882717846025259848845113425386227281208040009493475145153620031823341148257757577061325435398782334890076822503997974978547845880609199429561191159550205560257584823597547727347120138079681088884080802815312389855370023406131647680732689441756942412328292591231122026056150485184577080652741011372665587293082803536417639552986435521273172126142421305740588918218473217337452233964848034, 1841),
   (834591548753501935284625650250906120680625730683344262911855996832098524819928525140680347950788577360351135466304201070240988106536731288986608590181530735965600787061087745949661276084593111311171590597859157713883995553617817904560928150526090122281018706219617297955118697734286270806746925547579398423135695750218426161428212653697389188357575703040318581819098103308569275894332555048848560188949169032106100433535, 1844),
   (750297802329398239820878459575564602491882531884326492357758541152056573813115744101471632807758931046955670784207476762146648307776521428798961122573196131633075107567917883608745487200049207068743259947475382784781712002702418296200274407322955019930635816891435950861651709263123357455265486067273879182398990479446365119123963175673952880333460557033246405055369194874403779029004966988914855609865302959863384289748, 1847),
   (675268022096458415838790613618008142242694278695893843121982687036850916431804169691324469526983037942260103705786729085931983476998869285919065010315876518469767596811126095247870938480044286361868933952727844506303540802432176466580246966590659517937572235202292355775486538336811021709738937460546491264159091431501728607211566858106557592300114501329921764549832275386963401126104470290023370048878772663877045860773, 1850),
   (608416487908909032670750342869825336160667545105000352652906401020202675705055556891883347043811717185976353438913842906424717112775981226613077574294604743141260604726824611818331715570519902012043909491407787900179490262991390996388802516898184225661752583917265412553713371041466730560474782651952388629007341379783057475097621739154008390662403165698259509859398880123654024414620127731311056414039774170153218320556, 1853),
   (548791672093835947469016809268582453216922125684710318092921573720222813485960112316478779033518168901750670801900286301595094835723935066404995972013733478313417065463595799860135207444608951614863606361249824685961900217218234678742699870242162171546900830693373402123449460679402990965548253952061054543364621924564317842538054808716915568377487655459830077893177789871535930021987355213642572885463876301478202925142, 1856),
   (495558879900733860564522178769529955254880679493293417237908181069361200577821981421780337467266906518280855734115958530340370636658713364963711362728401330917015610113627007273702092322481883308221836544208591691423595896148065914904657982828672440906851450116116182117474862993500900841890073318711132252658253597881579011811863492271374758244871352880226560337539544253996944809854581757919243315573880300234817241403, 1859),
   (447985227430263409950328049607655079550412134261937249183068995686702525322351071205289425070409283492525893583640826511427695055539476881927195071906474803148982111542718814575426691459523622510632540235964566889046930690117851587073810816477119886579793710904969028634197276146124814361068626280114863556403061252484947426677924597013322781453363703003724810545135748005613238108108541909158995957278787791412274786228, 1862),
   (405426630824388386005046884894927846993122981507053210510677441096465785416727719440786929688720401560735933693194947992842064025263226578144111540075359696849828810946160527190761155770868878372122448913547933034587472274556655686301798788911793497354713308368996970913948534912242956996767106783503951518544770433498877421143521760297057117215294151218370953543347851945079980487838230427788891341337302951228108681537, 1865),
   (367316527526895877720572477714804629375769421245390208722673761633398001587555313813352958297980683814026755926034622881514910006888483279798565055308275885345944902717221437634829607128407203805142938715674427329336249880748330051789429702754084908603370257382311255648037372630492119039070998745854580075801562012749982943556030714829133748197056501003844083910273153862242462321981436767576735555251596473812666465472, 1868),
   (333156090466894561092559237287327798843822865069568919311465101801491987439912669628711133176268480219322267624913402953534023376247854334777298505164606228008772026764519843934790453665465333851264645415116705587707978641838735356973012740397955012103256823445756308872769896975856351968437395862490104128752016745564234529805319858350024309614730246410486584106617750553053913326037163148192099148613198001748088484183, 1871),
   (302505730143940261472043787456893641350191161483168578734810312435754724595440704022869708924051780039144619003421369881808893225633051735977787042689462455031965000302184018292789731928242523136948298036925968673638844606789571704131495568281343150989757195688746728456475066454077567587341155443141014548906831204972324953063230431381822073130175063740721818368808917502172953300041744138558426026940783785587264343638, 1874),
   (274977708700841697678087802798316319987323765788200238069942574004101044657255599956788565411963068055582458674110025222564283942100444028003808421804721371624056185274685272628145866322772453531486002915565705524337709747571720679055529471567740924249689290881070776166935835406756508936893110297815182224956309565319843382334476462126076264475329132940316132897247306009475214549737945421949609258489172461098823288367, 1877),
   (250229714917765944887059900546467851188464626867262216643647742343731950638102595960677594524886391930580037393440122952533498387311404065483465663842296448177891128599963598091612738353722932713652262653164792027147315870290265817940531819126644241067217254701774406311911610220148423132572730371011815824710241704441057477924373580534729400672549510975687680936495048468622445240261530333974144425225146939599929192414, 1880),
   (227959270290084775792111569397832212432691275076075879362363093275139807031311464920177288612171503048758414065423952009758017030840689103655437219760332064290058818154566837861459204640241591702137211277033125536731204757834432160143824487224372903612234919033316484150151476910555213473773757367991764216311030192745803362389104331867138484012692604498851477333146989154915047613878254134250445571380108861975535494289, 1883),
   (207898854504557315522405751290822977738614442869381201978475141066927504012556056007201687214300410780467673627666644232899311532126708462533758744421422842632533642156964956129650794631900331632349136684654210489498858739145002130051167932348628088094358246158384633544938146942426354688081666719608488965275659535784172666498863150662830297419575655302952547327830054109282523423856967770436406361098659282121688370792, 1886),
   (189811654162660829071956450928521378675354986339745037406347803794104811163463679134575140426656275042566986022059646184637071428831684826293321733656759055323503215289309004946371175498925002780334761793089294176912458028839386944736716322234297444430149078742605170426528528158435261830218561715002550425296677156170949644513462056555164061544072573291595675710308839401774943885981411574408439007683075924577101482533, 1889),
   (173487851904671997771768196148668540109274457514526964189401892667811797403405802729001678349963835388906225224162516612758283285952159931232096064562277776565681938774428430520983254406017452541225972278883614877697986638359199667489358718522147864209156257970741125769847074736809829312819765407512331088721162920740247975085304319691419952251282331988518447599222279213222298711787010179009313253022331395063470755035, 1892),
   (158741384492774877961167899476031714199986128625792172233302731791047794624116309497036535690216909380849196080108702700673829206646226337077367899074484165557598973978602013926699677781505969075221764635178507613093657774098667695752763227447765295751377976043228130079410073384180993821230085347873782946179864072477326897203053452517649256309923333769494379553288385480098403321285114313793521626515433226483075740857, 1895),
   (145407108195381788212429795920045050207187293821225629765705302320599779875690539499285466692238688992857863609379571673817227553287943324762868995552227495650760660164399444756856904847859467672903136405823512973593790521074379609309531116342153010908262226055596967152739627219909790340246758178652385178700755490389231437837996962506166718779889773732856851670812161099770137442297164711434865809888136835458497378625, 1898),
   (133338318215165099790798122858681311039990748434063902495151762227989998146008224720844772956782877806450660929801067224890397666365044028807550868921392613511747525370754290842037781745487131856052176084140161396785505907825206101736840033685754311002876461292982418879062238160657277742006277249824237208868592784686925228497443214618154881121158922513029732982134751728489216034586500040385771947667421478115442096199, 1901),
   (122404576121521561607952676784269443534711507062470662490549317725294818298035550293735501574326681826321706733557379712449385057723110418445331697669838419203784228290352438992990683642357187043855897645240668162249094423383539201394419150923522457500640591466957860530979134631483380967161762515338649757741368176342597359760652871019466180869223890866961294877599702086753100319750407037074138647958692916909975844311, 1904),
   (112489805455678315117708509964743618608399874990410538828814822989545938015894670719942925946806220598389648488139231955740984868047538474551259830158581507248277705798833891434558438267326254893303569935976174041106917775089472526081471199698717138443088703558134273827969824726333227108821659751596219127364317354058846973620039988466889420218816755706737429992514126217726099193850624067071133417474038790640267800922, 1907),
   (103490621019224049908291829167564129119727884991177695722509637150382262974623097062347491871061722950518476609088093399281706078603735396587159043745894986668415489334927180119793763205940154501839284341098080117818364353082314723994953503722819767367641607273483531921732238748226568940115926971468521597175171965734139215730436789389538266601311415250198435593112996120308011258342574141705442744076115687389046376848, 1910),
   (953148619587053499655367746633265629192693820768746577604313758155020641996278723944220400132478468374275169569701340207384512983940403002567734792899692827216106656774679328903300559126708822961939808781513317885107135691888118607993521769287170057455979202988783328999153918871166699938467687407225083909983333804411422176877322830277647435398078134454327591812570694268036783689335107845107127672941025480853117130771, 1912),
   (878803027259263326682249062395870910115663702748784344551177285018929031920568983476571208922145147841081706343264635671208520971193051568367451479053516786693250337546254341248843115514825534770908503696555279090068779107920845356570027071282770792974412825155658229337219913199215697343267207789461527365004633767667331247080891649515990935437028039966890039651190180115129914561566969433188771714451625493346573994570, 1915),
   (811135194160300050527715884591388850036757597637127950020736634072471496462685171748875225835139971457318414954833258724525464856411186597603157715166395994117870061555192756972682195620183968593548548911920522600133483116610940264114134986793997441915383037618672545678253979882876088647835632789672989757899276967556946741055662992503259633408376880889439506598048536246264911140326312786833236292438850330358887796989, 1918),
   (749488919404117246687609477362443297433964020216706225819160649882963662731521098695960708671669333626562215418265931061461529527323936416185317728813749898564911936876998107442758348753049986980438859194614562882523338399748508804041460727797653636329813926759653432206706677411777505910600124697657842536298931918022618788735432605073011901269340237941842104096596847491548777893661513015033910334213497705251612324417, 1921),
   (693277250448808453186038766560260050126416718700453258882723601141741388026657016293763655521294133604570049261895986231851914812774641184971418899152718656172543541611223249384551472596571237956905944755018470666334088019767370643738351173212829613605077882252679424791203676605894192967305115345333504346076512024170922379580275159692536008674139720096203946289352083929682619551636899538906367059147485377357741400086, 1924),
   (641974733915596627650271897834800806417061881516619717725402054657252525312684397088025145012718367717831865616515683250694873116629317737283533900615417475615775319531992728930094663624424966348094904843147103837025365506304585216101713186395080222198302118965981147356654604537058022687724536809778825024466850134382274123491334797875288344032253380809084854263940029718886105704815768973027295896770571459433268536480, 1927),
   (595110578339758073831802049292860347548616364165906478331447704667273090964858436100599309426789926874430139426510038373394147379115377542461835925870491999895823721206157259718197753179841943804683976789597365256922513824344350495326288123788239365977826064281464523599618818405852787031520645622664970797680770074572368112476467357630392294917898884010021659902672407549407419988364217837996303296306319742894639933317, 1930),
   (552262616699295492515912301743774402525115985945961211891583469931229428415388628701356159148061052139471169387801315610509768767819070359404583739207816575903324413279313937018487514950893323850746730460746354958424092828991557259662795378875486131627422587653199077900446263480631386365251159137833092900247754629203157608378161707881004049683810164361300100389679994205850085749201994153660569458972264721406225858118, 1933),
   (513051970913645512547282528319966419945832750943797965847281043566112138997896036063559871848548717437568716361267422202163575185303916363886858293724061599014188379936482647490174901389379897857343712598033363756375982238133156694226736906975326616281875583929821943369514578773506557933318326839046943304330164050529733418183312226621452762156259642691647793262012714617234729661008652568750669027385233926186383822192, 1936),
   (477138332949690326668972751337568770549624458377732108237971370516484289268043313539110680819150307216938906215978702648012124922332642218414778213163377287083195193340928862165862658292123305007329652716171028293429663481463835725630865323487053753142144293054734407333648558259361098877986043960313657273027052566992652078910480370757951068805321467703232447733671824594028298584738046888938122195468267551353336954638, 1939),
   (444215787976161694128813631495276525381700370749668592769551345950846873308548324904912043842628936018970121687076172165299288302691689905344158516455104254274454725000404770676418134869966796961823906678755227341183016701242831060562335616166447044175336336833957733227626807739465183055405006927052014921188185939870159085465657225175652445057754286431709408840048468697040345982391121653601391763980957090309956704768, 1942),
   (414009114393782698928054304553597721655744745538691128461221854426189285923567038811378024861330168369680153412354992458058936698108654991780755737336157164983791803700377246270421701698809054768419881024599871881982571565558318548444096794267128645171413465929248607368148184813181550607637466456012477906547389295958988267653992533863708078793826994954353169038925172825641602455588525381156497124030252008168879648844, 1945),
   (386270503729399258099874666148506674304809847587598822854319990179634603766688047211015697195621047088911583133727207963368987939335375107331445102934634634929877752852451970770303447684988848098935748995951680465889739270665911205698342309051231025944928763711988950674482256430698386716925756203459641886808714213129736053721175034094839637514640586292411506713317186246323615091064094180619011816720225123621564712371, 1948),
   (360776650483258907065282938182705233800692397646817300545934870827778719918086636095088661180710057981043418646901212237786634735339240350247569726140948749024505821164190140699463420137779584124405989562218869555141016478801961066122251716653849778232563465306997679929966427506272293193608656294031305522279339075063173474175577481844580221438674307597112347270238251954066256495053863964698157036816690265462541441355, 1951),
   (337326168201847078106039547200829393603647391799774176010449104223973103123411004748907898203963904212275596434852633442330503477542189727481477693941787080337912942788517781553998297828823911156319600240674643034056850407679833596824305355071349542647446840062042830734518609718364594136024093634919270663331182035184067198354164945524682507045160477603300044697672765577051949822875362806992776829423605398207476247667, 1954),
   (315737293436928865107253016179976312413013958724588628745780361553638824523512700444977792718910214342689958263022064902021351254979489584922663121529512707196286514450052643534542406767779180842315145825271465879877211981588324246627549812346783171918010242298072089567509418696389260111318551642284437340877986384932286897659498389011102826594270207036688841837021708580120625034211339587345239112340494652722197767816, 1957),
   (295845843950402346605496076160637804730994079324939545134796198775759578578531400316944191777618870839100490892451674813194006125915781741072535344873153406642920464039699326991866235141409092449249291638279363529444947626748259819090014174168935832087175597033293547924756325318516736724305482888820517788402673242681552823106949990503403348518831183993377444801289340939573025657056025193342489048263043489600699308444, 1960),
   (277503401625477401115955319438678260837672446406793293336438834451662484706662453497293651887406500847076260457119670974775977746109003273126038153491017895431059395269237968718370528562641728717395835556706042990619360873889867710306433295370461810497770710017229347953421433148768699047398542949713645685521707501635296548074319091092192340910663650585788043223609401801319498066318551631355254727270734793245455951320, 1963),
   (260575694126323279647882044952918886926574427175978902442916065550111073139556043833958739122274704295404608569235371045314643103596354073465349826128065803809764772157814452626549926320320583265634689587746974368191579860582585779977740864352863640057406696706178357728262725726693808405507231829781113298704883344035543458641785626535568608115113167900054972586969228291439008684273119981842584188907219970857483138290, 1966),
   (244941152478743882869009122255743753710979961545420168296341101617104408751182681203921214774938222037680332055081248782595764517380572829057428836560381855581178885828345585468956930741101348269696608212482155906100085068947630633179076412491691821653962294903807656264566962183092179901176797919994246500782590343393410851123278488943434491628206377826051674231751074593952668163216732782932029137572786772606034149992, 1969),
   (230489624482497993779737584042654872242032143814240378366856976621695248634862903012889863103216866937457192463831455104422614410855119032143040535203319326101889331564473195926288471827376368721784508327945708707640180049879720425821510904154682004176378519504483004544957511414289741287007366842714585957236417513133199610907005058095771856622142201534314625452077761192909460741586945548739039418455992353022278135143, 1972),
   (217121226262513110140512804168180889651994279473014436421579271977636924214040854638142251043230288655084675300929230708366102775025522128278744184161526805187979750333733750562563740461388539335921006844924857602597049606986696641123863271713710447934148565373222990281349975752260936292360939565837139971716705297371474033474398764726217088938057953845324377175857251043720712018574902706912175132185544796546986003304, 1975),
   (204745316365549862862503574330594578941830605543052613545549253474911619533840525923768142733766162201744848808776264557989234916849067366966855765664319777292264904564710926780497607255089392593773509454764140719249017779388454932579803065226028952401902097146949279835313027134382062923696366010584422993328853095421300013566358035136822714868588650476140887676833387734228631433516133252618181149650968743143807801116, 1978),
   (193279578649079070542203374168081282521088091632641667186998495280316568839945456472037126740675257118447137275484793742741837761505519594416711842787117869763898069909087114880789741248804386608522192925297348838971072783742701456355334093573371331067395579706720120164535497614856667399969369513991695305702437322077707212806641985169160642835947686049476997966930718021111828073239229790471563005270514493527754564254, 1981),
   (182649201823379721662382188588836811982428246592846375491713578039899157553748456366075084769938117976932544725333130086891036684622716016723792691433826386926883676064087323562346305480120145345053472314405994652827663780636852876255790718426835907858688822822850513555486045246039550692971054190722152063888803269363433316102276675984856807479970563316755763078749528529950677529211072151995627039980636196383728063220, 1984),
   (172786144924917216692613550405039624135377121276832671215161044825744603045846039722307030192361459606178187310165141062198920703653089351820707886096399762032831957556626608089979604984193657496420584809428070941574969936482462820937978019631786768834319626390416585823489798802753414955550617264423155852438807892817807917032753735481674539876052152897650951872497053989333340942633674255787863179821681841779006747806, 1987),
   (163628479243896604207905032233572524056202133849160539640757509449980139084416199617024757592166302247050743382726388585902377906359475616174210368133290574645091863806125397861210685920031393649110293814528383181671496529848892291428265184591302070086100686191724506774844839466207483962906434549408728592259551074498464097430017787501145789262621388794075451423254710127898673872674089520231106431291132704164719390172, 1990),
   (155119798323213980789093970557426752805279622889004191579438118958581171852026557236939470197373654530204104726824616379435454255228782884133151428990359464763547086888206877172427730252189761179356558536172907256224578710296749892273995394992554362441623450509754832422552907813964694796835299952839474705462054418624543964363656862551086208220965076576783527949245465201247942831295036865179088896863993803548153981883, 1993),
   (147208688608730067768850178058997988412210362121664977808886774891693532087573202817855557217307598149163695385756560944084246088212114957042360706111851132060606185456908326436633916009328083359209374050828088986157125196071615647768021629847934089957100654533757335969002709515452495362196699655244661495483489643274692222181110362560980811601695857671367568023833946475984297746898989985054955363123930119567198128807, 1996),
   (139848254178293564380407669156048088991599844015581728918442436147108855483194542676962779356442218241705510616468732896880033783801509209190242670806258575457575876184062910114802220208861679191248905348286684536849268936268034865379620548355537385459245621807069469170552574039679870594086864672482428420709315161110957611072054844432931771021611064787799189622642249152185082859554040485802207594967733613588838222367, 1999),
   (132995689723557179725767693367401732631011451658818224201438756775900521564518010085791603167976549547861940596261764984932912128395235257939920779936751905260154658251043827519176911418627456910877708986220636994543654758390901156976019141486116053571742586338523065181195497911735556934976608303530789428094558718216520688129524157055718114241552122613197029331132778943728013799435892501997899422814314666522985149471, 2002),
   (126611896616826435098930844085766449464722901979194949439769696450657296529421145601673606215913675169564567447641200265656132346232263965558804582499787813807667234654993723798256419670533338979155578954882046418805559329988137901441170222694782483000298942194273958052498114011972250202097731104961311535546019899742127695099306997517043644757957620727763571923238405554429069137062969661902000250519227562529881862296, 2005),
   (120661137475835592649281094413735426339880925586172786816100520717476403592538351758394946723765732436595032777602063853170294125959347559177540767122297786558706874626209018779738367946018272047135266744002590237121698041478695420073435222228127706299284891911143082024030702653409554442599137743028129893375356964454247693429639568633742593454333612553558684042846200493370902887621010087792606238744823867090977414768, 2008),
   (115110725151947155387414164070703596728246403009208838622559896764472489027281587577508779174472508744511661269832368915924460596165217571455373891834672088377006358393403403915870403020501431532967044473778471086214099931570675430750057202005633831809517786883230500250925290331352714938239577406848835918280090544089352299531876148476590434155434266376094984576875275270675841354790443623754146351762561969204792453689, 2011),
   (109930742520109533394980526687521934875475314873794440884544701410071227021053916136520884111621245851008636512689912314707859869337782780739882066702111844400041072265700250739656234884578867113983527472458439887334465434649995036366304627915380309378089486473485127739633652266441842766018796423540638301957486469605331446052941721795143864618439724389170710270915887883495428493824873660685209765933246680590576793273, 2014),
   (105093789849224713925601383513270969740954401019347485485624734548028093032127543826513965210709911033564256506131556172860714035086920338387327255767218923246439265086009439707111360549657396960968252263670268532291748955525395254766187224287103575765453549068651782119089771566718401684313969380904850216671357064942696862426612286036157534575228376516047199018995588816621629640096579219615060536232183826644591414369, 2017),
   (100574756885708051226800524022200318042093361775515543609742870962462885031746059441973864706649384859120993476367899257427703331578182763836672183769228509546842376687311033799705572046022128891646617416332446985403203750437803258811241173642758122007539046458699755487968911389349510411888468697525941657354488711150160897342267957736602760588493556325857169461178778497506899565572426313171612933174199922098873983551, 2020),
   (963506170965083130752749020132679046843254405809438907781336703820394438604127249454109623889701106950379117503604474886157397916518990877555319520509209121458749968664439703801179380200891994781974594848464842120162691929194155219411690443497622808832224065074343657574742171109968309745891530122298521077456001852818541396538927035116654446437768269601711683438092698006116097838183844080184051899808835253707212762419, 2022),
   (924002417955514722391886310307239205922680975171251912562301898963758266621358032226491129310223361565413573685956691415824944601941712251575551420168331547478941219949197675945331025612655422995913636459677783593236021560097194855415811135314220273670102878406295567614177742094459609046309977387284281713280305776852981199280831026676871614133819770548041504417130897387865337826818306472896505771916673008305217039160, 2025),
   (887042321237294133496210857894949637685773736164401836059809823005207935956503710937431484137814427102797030738518423759191946817864043761512529363361598285579783571151229768907517784588149206076077091001290672249506580697693307061199178689901651462723298763270043744909610632410681224684457578291792910444749093545778861951309597785609796749568466979726119844240445661492350724313745574213980645541040006087973008357593, 2028),
   (852447670709039662289858634437046601816028560453990164453477239908004826454200066210871656256439664445787946539716205232583460891967346054813540718190495952442172011876331807920124590989211387039110084452240336031775824050483268085812410720995487055677090111502512038858135817746664656921763732738412986937403878897493486335208523471971014676335296767516801170315068280694149046065509496819635400364939445850542061031647, 2031),
   (820054659222096155122844006328438830947019475156738538204245104791500643048940463694858533318694957196848004571206989433745289378072586904730626170899257106249369475425031199219159856531621354331623901243055203262568342736564903898551539113597658547561360687265416581381526656672291399958736710894353293433782531499388733854470599580036116118634555490351162725843095686027771382315020135940489255151071746908221462712445, 2034),
   (789712636830878597383298778094286594201979754575939212290688035914215119256129666538148767585903243780564628402072330824696713671083901189255593002575984593318142804834305044848050941839951364221353816897062160741853314055312002454305132166394545181301590341836596167870410170375416618160263452591262221576732577833911350701855187395574779822245076937208169704986901145644743841169364390910691152710482092272617268592084, 2037),
   (761282981904966967877500022082892276810708483411205400648223266621303374962908998542775411952810727004464301779597726915007631978924880746442391654483249147958689663860270063233521107933713115109385079488767922955146594749320770365950147408404341554774733089530478705827075404241901619906493968297976781599970205031890542076588400649334087748644254167468675595607372704401533062887267272837906271212904736950803046922769, 2040),
   (734638077538293124001787521309991047122333686491813211625535452289557756839207183593778272534462351559308051217311806472982364859662509920316907946576335427780135525625160611020347869156033156080556601706661045651716463933094543403141892249110189600357617431396911951123127765093435063209766679407547594243971247855774373103907806626607394677441705271607271949761114659747479405686212918288579551720453071157524940280472, 2043),
   (709660382901991157785726745585451351520174341151091562430267246911712793106674139351589811268290631606291577475923205052900964454433984583026133076392740023235610917753905150245656041604728028773817677248634570099558104159369328927435067912640443153945458438729416944784941421080258271060634612307690976039676225428678044418374941201302743258408687292372624703469236761316065105892881679066767846961957666738169092310936, 2046),
   (686241590266225449578797762981131456920008587893105540870068427763626270934153892752987347496437040763283955419217739286155232627437663091786270684871779602468835757468026280287549392231772003824281693899429629286272686722110141072829710671523308529865258310251346185607038354184609748115633670101537173830366909989531668952568568141659752730881200611724328088254751948192634957398416583657564508012213063735809512264675, 2049),
   (664281859377706235192276234565735250298568313080526163562226238075190230264260968184891752376551055458858868845802771628998265183359657872849110022955882655189833013229049439318347811680355299701904679694647881149111960747002616558499159930034562656909570044323303107667613126850702236175933392658287984267795168869866655546086373961126640643493002192149149589430599885850470638761667252980522443755822245696263607872206, 2052),
   (643689121736997341901315671294197457539312695375029852491797224694859333126068878171160108052877972739634243911582885708499318962675508478790787612244250292878948189818948906699479029518264285411145634624113796833489489963845535445185685972203491214545373372949280711329917119918330466854479457485881056755493518634900789224157696368331714783544719124192525952158251289389106048960055568138126247999391756079679436028167, 2055),
   (624378448084887421644276201155371533813133314513778956917043307954013553132286811826025304811291633557445216594235399137244339393795243224427063983876922784092579744124380439498494658632716356848811265585390382928484805264930169381830115393037386478109012171760802289990019606320780552848845073761304625052828713075853765547432965477281763340038377550466750173593503750707432867491253901093982460559410003397289052947322, 2058),
   (606271473090425686416592191321865759332552448392879367166449052023347160091450494283070570971764176184279305313002572562264253551375181170918679128344492023353894931544773406753038313532367582500195738883414061823558745912247194469757042046639302270243850818779739023580309037737477916816228566622226790926296680396654006346557409478440592203177264601503214418559292141936917314334007537962256969203187113298767670411850, 2061),
   (589295871843893767196927609964853518071240979837878744885788478566693439608889880443144594984554779251119484764238500530520854451936676098132956112750846246699985873461519751363953240753461290190190258194678468092499101026704273024603844869333401806677022995853906330920060384680828535145374166756804440780360373345547694168853802013044255621488301192661124414839631961962683629532655326899313774065497874126402175640318, 2064),
   (573384883304108635482610564495802473083317473382256018773872189645392716739449853671179690919971800211339258675604061016196791381734385843483366297706573398039086254878058718077126503253117835355055121223422149454001625298983257652939541057861399957896743374965850859985218754294446164696449064254370720879290643265217906426294749358692060719708117060459274055638961898989691171535273633073032302165729431524989316898030, 2067),
   (558476876338201810960062689818911608783151219074317362285751512714612506104224157475729018956052533405844437950038355429775674805809291811552798773966202489690070012251229191407121214168536771635823688071613173568197583041209692953963112990357003558991428047216738737625603066682790564414341388583757082136429086540322240859211085875366067140995706016887332930192348889615959201075356518613133462309420466305339594658681, 2070),
   (544514954429746765686061122573438818563572438597459428228607724896747193451618553538835793482151220070698327001287396544031282935664059516263978804617047427447818261944948461621943183814323352344928095869822844228992643465179450630114035165598078470016642346036320269184962990015720800303982853869163155083018359376814184837730808728481915462470813366465149606937540167375560221048472605647805125751684954647706104792214, 2073),
   (531446595523432843309595655631676286918046700071120401951121139499225260808779708253903734438579590789001567153256499026974532145208122087873643313306238289189070623658269698543016547402779591888649821568947095967496820022015143814991298321623724586736242929731448582724523878255343501096687265376303239361025918751770644401625269318998349491371513845669986016371039203358546775743309263112257802733644515736161158277201, 2076),
   (519223323826393887913474955552147732318931625969484632706245353290743079810177774964063948546492260200854531108731599549354117905868335279852549517100194808537721999314129495476527166812515661275210875672861312760244393161508795507246498460226378921241309342347625265321859829055470600571463458272648264855722322620479919580387888124661387453069969027219576337994505301681300199901213150060675873270770691874229451636825, 2079),
   (507800410702213222379378506530000482207915130198155970786707955518346732054353863914854541678469430476435731424339504359268327311939231903695793427723990522749892115329218646576043569142640316727156236408058363879519016511955602006087075494101398584974000536815977509484778912816250247358891262190650003028896431522829361349619354585918836929102429708620745658558626185044311595503386460759341004058813736652996403700815, 2082),
   (497136602077466744709411557892870472081548912463994695400187088452461450681212432772642596303221572436430581064428374767723692438388508033718181765741786721772144380907305054997946654190644870075885955443489138238049117165204534363959246908725269214689546525542841981785598555647108992164354545684646352965289606460849944761277348139614541353591278684739709999728895035158381051997815345083394842973578648183283479223098, 2085),
   (487193870035917409815223326735013062639917934214714801492183346683412221667588184117189744377157140987701969443139807272369218589620737873043818130426950987336701493289158953897987721106831972674368236334619355473288134821900443676680061970550763830395755595031985142149886584534166812321067454770953425905983814331632945866051801176822250526519453111044915799734317134455213430957859038181726946114107075219617809638636, 2088),
   (477937186505234979028734083527047814449759493464635220263831863096427389455904008618963139233991155308935632023720150934194203436417943853455985585948838918577304164916664933773925954405802165193555239844261587719295660260284335246823140793110299317618236238726377424449038739428017642886967173130305310813770121859331919894596816954462627766515583501935062399539365108900564375769659716456274134137939040790445071255502, 2091),
   (469334317148140749406216870023560953789663822582271786299082889560691696445697736463821802727779314513374790647293188217378707774562420864093777845401759818042912689948164964965995287226497726220071245527064879140348338375599217212380324258834313929901107986429302630808956042118313325315001764013959815219122259665863945336494074249282300466718302998900231276347656536940354217005805841560061199723456138056217059972903, 2094),
   (461355633756622356666311183233160417575239537598373165931998480438159937606120874943936832081407066166647419206289204017683269742394859709404183622029929901136183174219046160561573367343647264874330034353104776194962416623214030519769858746434130593092789150660004486085203789402301998784646734025722498360397181251544258265773674987044501358784091847918927344649746375812368195316707142253540159328157383709261369953363, 2097),
   (453973943616516398959650204301429850894035704996799195277086504751149378604422940944833842768104553107981060498988576753400337426516541954053716684077451022718004243431541421992588193466148908636340753803455099775843017957242606031453541006491184503603304524249444414307840528771865166804092386281310938386630826351519550133521296187251789337043546378352224507135350433799370304191639827977483516778906865569913188034109, 2100),
   (447164334462268652975255451236908403130625169421847207347930207179882137925356596830661335126582984811361344591503748102099332365118793824742910933816289257377234179780068300662699370564156675006795642496403273279205372687883966940981737891393816736049254956385702748093222920840287189302031000487091274310831363956246756881518476744443012496987893182676941139528320177292379749628765230557821264027223262586364490213598, 2103),
   (440904033779796891833601874919591685486796417049941346445059184279363787994401604475032076434810823024002285767222695628669941712007130711196510180742861207773952901263147344453421579376258481556700503501453627453296497470253591403807993560914303301744565386996302909619917799948523168651802566480271996470479724860859302285177218070020810322030062678119463963574923694810286433133962517330011766330842136910155387350607, 2106),
   (435172281340659532239765050545636993575468063628292108941273414883732058750474383616856659441158282324690256052248800585497232469751038011950955548393204012072891513546726428975527098844367121296463396955934730296403643003140294715558489644622417358821886036965350971794858868549192367459329133116028460516363488437668131355469914235110539787843671863303910932048449686777752709503221004604721613368541189130323367315050, 2109),
   (429950213964571617852887869939089349652562446864752603633978133905127274045468691013454379527864382936793972979621814978471265680114025555807544081812485563928016815384165711827820773658234715840905836192463513532846799287102611178971787768886948350516023404521766760133320562126602059049817183518636118990167126576416113779204275264289213310389547800944264000863868290536419676989182352549464954008118694860759486907269, 2112),
   (425220761610961330056506103369759366806384259949240324994004374432170874030968535412306381353057874724489239276845975013708081757632771274693661096912548222724808630414939888997714745147994133966655871994346414883985484494944482456003098103429191918660347147072027325771854035943209436400269194499931121681275288184075536527633028236382031963975262775133877096854365739340519060542301346671420839514029389217291132551289, 2115),
   (420968553994851716755941042336061773138320417349747921744064330687849165290658850058183317539527295977244346884077515263571000940056443561946724485943422740497560544110790490107737597696514192626989313274402950735145629649995037631443067122394899999473743675601307052514135495583777342036266502554931810464462535302234781162356697954018211644335510147382538325885822081947113869936878333204706631118889095325118221225776, 2118),
   (417179837008898051305137572955037217180075533593600190448367751711658522803042920407659667681671550313449147762120817626198861931595935569889203965569931935833082499213793375696767959317245564893346409454933324178529318983145082292760079518293345899478479982520895289041508276123523345957940104031937424170282372484514668131895487672432047739536490556056095480952849683209589845107446428205864271438819093467192157234744, 2121),
   (413842398312826866894696472371396919442634929324851388924780809697965254620618577044398390340218177910941554580023851085189271036143168085330090333845372480346417839220083028691193815642707600374199638179293857585101084431279921634417998882146999132282652142660728126729176209914535159190276583199681924776920113504638550786840323771052591357620198631607646717105226885743913126346586856780217357267308540719454619976866, 2124),
   (410945501524637078826433597064797141006536484819577429202307344030079497838274247005087601607836650665564963697963684127592946138890165908732779701508454872983992914345542447490355458933208647171580240712038800582005376840260962182977072889971970138356673577662103029842071976445133413075944647117284151303481672710106080931332441504655223218116857241186393190085490297543705734462160748782755835766437380934418437637028, 2127),
   (408479828515489256353474995482408358160497265910659964627093499965899020851244601523057075998189630761571573915775902022827388462056824913280383023299404143746088956859469192805413326179609395288550759267766567778513344579219396409879210452632138317526533536196130411663019544586462612597488979234580446395660782673845444445744446855627291878808156097739274830944977355758443500055387784290059300751838756648811927011206, 2130),
   (406437429372911810071707620504996316369694779581106664803958032466069525746988378515441790618198682607763716046197022512713251519746540788713981108182907123027358512075171846841386259548711348312108005471427734939620777856323299427829814400368977625938900868515149759604704446863530299534501534338407544163682478760476217223515724621349155419414115317250578456790252468979651282555110845368609004248079562865567867376150, 2133),
   (404811679655420162831420790022976331104216000462782238144742200336205247644000425001380023455725887877332661182012234422662398513667554625559125183750175494535249078026871159454020714510516502918859573449542023999862294744898006230118495142767501715435145265041089160566285629076076178336363528201053913987027748845434312354621661722863758797736458855981576142963091459103732677424890401987134568231087244614105595906645, 2136),
   (403597244616453902342926527652907402110903352461393891430307973735196631901068423726375883385358710213700663198466197719394411318126551961682447808198924968051643330792790545975658652366984953410102994729193397927862707860663312211428139657339199210288839829245965893084586772188847949801354437616450752245066665598898009417557796737695167521343249479413631414534202184726421479392615730781173164526393982880263279118925, 2139),
   (402790050127220994538240674597601587306681545756471103647447357787726238637266286878923131618587992793273261872069265323955622495490298857759082912582527118115540044131204964883707335062250983503282788739735011132006982444941985587005283378024520811868262149587473961298417598644470253901751728741217850740576532267700213398722681144219777186300562980454804151705133780356968636433830499319610818197341194914502752560688, 2142),
   (402387260077093773543702433923003985719374864210714632543799910429938512398629020592044208486969404800479988610197196058631666872994808558901323829669944590997424504087073759918823627727188732519779505950995276120874975462497043601418278094646496291056393887437886487337119181045825783647849977012476632889835955735432513185323958463075557409114262417474349347553428646576611667797396668820291207379143853719588249808127, 2145),
   (402387260077093773543702433923003985719374864210714632543799910429938512398629020592044208486969404800479988610197196058631666872994808558901323829669944590997424504087073759918823627727188732519779505950995276120874975462497043601418278094646496291056393887437886487337119181045825783647849977012476632889835955735432513185323958463075557409114262417474349347553428646576611667797396668820291207379143853719588249808127, 2148)]

set_option maxHeartbeats 4000000 in
set_option maxRecDepth 20000 in
/-- Double factorials (A006882.cpp 21-6021). -/
def a6882 : List (Int × Nat) :=
  [(1, 0),
   (1, 0),
   (2, 0),
   (3, 0),
   (8, 0),
   (15, 0),
   (48, 0),
   (105, 0),
   (384, 0),
   (945, 0),
   (3840, 0),
   (10395, 0),
   (46080, 0),
   (135135, 0),
   (645120, 0),
   (2027025, 0),
   (10321920, 0),
   (34459425, 0),
   (185794560, 0),
   (654729075, 0),
   (3715891200, 0),
   (13749310575, 0),
   (81749606400, 0),
   (316234143225, 0),
   (1961990553600, 0),
   (7905853580625, 0),
   (51011754393600, 0),
   (213458046676875, 0),
   (1428329123020800, 0),
   (6190283353629375, 0),
   (42849873690624000, 0),
   (191898783962510625, 0),
   (1371195958099968000, 0),
   (6332659870762850625, 0),
   (46620662575398912000, 0),
   (221643095476699771875, 0),
   (1678343852714360832000, 0),
   (8200794532637891559375, 0),
   (63777066403145711616000, 0),
   (319830986772877770815625, 0),
   (2551082656125828464640000, 0),
   (13113070457687988603440625, 0),
   (107145471557284795514880000, 0),
   (563862029680583509947946875, 0),
   (4714400748520531002654720000, 0),
   (25373791335626257947657609375, 0),
   (216862434431944426122117120000, 0),
   (1192568192774434123539907640625, 0),
   (10409396852733332453861621760000, 0),
   (58435841445947272053455474390625, 0),
   (520469842636666622693081088000000, 0),
   (2980227913743310874726229193921875, 0),
   (27064431817106664380040216576000000, 0),
   (157952079428395476360490147277859375, 0),
   (1461479318123759876522171695104000000, 0),
   (8687364368561751199826958100282265625, 0),
   (81842841814930553085241614925824000000, 0),
   (495179769008019818390136611716089140625, 0),
   (4746884825265972078944013665697792000000, 0),
   (29215606371473169285018060091249259296875, 0),
   (284813089515958324736640819941867520000000, 0),
   (1782151988659863326386101665566204817109375, 0),
   (17658411549989416133671730836395786240000000, 0),
   (112275575285571389562324404930670903477890625, 0),
   (1130138339199322632554990773529330319360000000, 0),
   (7297912393562140321551086320493608726062890625, 0),
   (74589130387155293748629391052935801077760000000, 0),
   (488960130368663401543922783473071784646213671875, 0),
   (5072060866326559974906798591599634473287680000000, 0),
   (33738248995437774706530672059641953140588743359375, 0),
   (355044260642859198243475901411974413130137600000000, 0),
   (2395415678676082004163677716234578672981800778515625, 0),
   (25563186766285862273530264901662157745369907200000000, 0),
   (174865344543353986303948473285124243127671456831640625, 0),
   (1891675820705153808241239602722999673157373132800000000, 0),
   (13114900840751548972796135496384318234575359262373046875, 0),
   (143767362373591689426334209806947975159960358092800000000, 0),
   (1009847364737869270905302433221592504062302663202724609375, 0),
   (11213854265140151775254068364941942062476907931238400000000, 0),
   (79777941814291672401518892224505807820921910393015244140625, 0),
   (897108341211212142020325469195355364998152634499072000000000, 0),
   (6462013286957625464523030270184970433494674741834234775390625, 0),
   (73562883979319395645666688474019139929848516028923904000000000, 0),
   (536347102817482913555411512425352545980058003572241486357421875, 0),
   (6179282254262829234236001831817607754107275346429607936000000000, 0),
   (45589503739486047652209978556154966408304930303640526340380859375, 0),
   (531418273866603314144296157536314266853225679792946282496000000000, 0),
   (3966286825335286145742268134385482077522528936416725791613134765625, 0),
   (46764808100261091644698061863195655483083859821779272859648000000000, 0),
   (352999527454840466971061863960307904899505075341088595453568994140625, 0),
   (4208832729023498248022825567687608993477547383960134557368320000000000, 0),
   (32122956998390482494366629620388019345854961856039062186274778466796875, 0),
   (387212611070161838818099952227260027399934359324332379277885440000000000, 0),
   (2987435000850314871976096554696085799164511452611632783323554397412109375, 0),
   (36397985440595212848901395509362442575593829776487243652121231360000000000, 0),
   (283806325080779912837729172696128150920628587998105114415737667754150390625, 0),
   (3494206602297140433494533968898794487257007658542775390603638210560000000000, 0),
   (27529213532835651545259729751524430639300973035816196098326553772152587890625, 0),
   (342432247025119762482464328952081859751186750537191988279156544634880000000000, 0),
   (2725392139750729502980713245400918633290796330545803413734328823443106201171875, 0),
   (34243224702511976248246432895208185975118675053719198827915654463488000000000000, 0),
   (275264606114823679801052037785492781962370429385126144787167211167753726318359375, 0),
   (3492808919656221577321136155311234969462104855479358280447396755275776000000000000, 0),
   (28352254429826839019508359891905756542124154226667992913078222750278633810791015625, 0),
   (363252127644247044041398160152368436824058904969853261166529262548680704000000000000, 0),
   (2976986715131818097048377788650104436923036193800139255873213388779256550133056640625, 0),
   (38504725530290186668388204976151054303350243926804445683652101830160154624000000000000, 0),
   (318537578519104536384176423385561174750764872736614900378433832599380450864237060546875, 0),
   (4158510357271340160185926137424313864761826344094880133834426997657296699392000000000000, 0),
   (34720596058582394465875230149026168047833371128291024141249287753332469144201839599609375, 0),
   (457436139299847417620451875116674525123800897850436814721786969742302636933120000000000000, 0),
   (3853986162502645785712150546541904653309504195240303679678670940619904075006404195556640625, 0),
   (51232847601582910773490610013067546813865700559248923248840140611137895336509440000000000000, 0),
   (435500436362798973785473011759235225823973974062154315803689816290049160475723674097900390625, 0),
   (5840544626580451828177929541489700336780689863754377250367776029669720068362076160000000000000, 0),
   (50082550181721881985329396352312050969757007017147746317424328873355653454708222521258544921875, 0),
   (677503176683332412068639826812805239066560024195507761042662019441687527930000834560000000000000, 0),
   (5859658371261460192283539373220509963461569821006286319138646478182611454200862034987249755859375, 0),
   (79945374848633224624099499563911018209854082855069915803034118294119128295740098478080000000000000, 0),
   (697299346180113762881741185413240685651926808699748071977498930903730763049902582163482720947265625, 0),
   (9593444981835986954891939947669322185182489942608389896364094195294295395488811817369600000000000000, 0),
   (84373220887793765308690683435002122963883143852669516709277370639351422329038212441781409234619140625, 0),
   (1170400287783990408496816673615657306592263772998223567356419491825904038249635041719091200000000000000, 0),
   (10377906169198633132968954062505261124557626693878350555241116588640224946471700130339113335858154296875, 0),
   (145129635685214810653605267528341506017440707851779722352196016986412100742954745173167308800000000000000, 0),
   (1297238271149829141621119257813157640569703336734793819405139573580028118308962516292389166982269287109375, 0),
   (18286334096337066142354263708571029758197529189324245016376698140287924693612297891819080908800000000000000, 0),
   (164749260436028300985882145742271020352352323765318815064452725844663571025238239569133424206748199462890625, 0),
   (2340650764331144466221345754697091809049283736233503362096217361956854360782374130152842356326400000000000000, 0),
   (21252654596247650827178796800752961625453449765726127143314401633961600662255732904418211722670517730712890625, 0),
   (304284599363048780608774948110621935176406885710355437072508257054391066901708636919869506322432000000000000000, 0),
   (2784097752108442258360422380898637972934401919310122655774186614048969686755501010478785735669837822723388671875, 0),
   (40165567115922439040358293150602095443285708913766917693571089931179620831025540073422774834561024000000000000000, 0),
   (370285001030422820361936176659518850400275455268246313217966819668512968338481634393678502844088430422210693359375, 0),
   (5382185993533606831408011282180680789400284994444766970938526050778069191357422369838651827831177216000000000000000, 0),
   (49988475139107080748861383849035044804037186461213252284425520655249250725695020643146597883951938106998443603515625, 0),
   (731977295120570529071489534376572587358438759244488308047639542905817410024609442298056648585040101376000000000000000, 0),
   (6848421094057670062594009587317801138153094545186215562966296329769147349420217828111083910101415520658786773681640625, 0),
   (101012866726638733011865555743967017055464548775739386510574256921002802583396103037131817504735533989888000000000000000, 0),
   (951930532074016138700567332637174358203280141780883963252315189837911481569410278107440663504096757371571361541748046875, 0),
   (14141801341729422621661177804155382387765036828603514111480395968940392361675454425198454450662974758584320000000000000000, 0),
   (134222205022436275556779993901841584506662499991104638818576441767145518901286849213149133554077642789391561977386474609375, 0),
   (2008135790525578012275887248190064299062635229661699003830216227589535715357914528378180531994142415718973440000000000000000, 0),
   (19193775318208387404619539127963346584452737498727963351056431172701809202884019437480326098233102918882993362766265869140625, 0),
   (289171553835683233767727763739369259065019473071284656551551136772893143011539692086457996607156507863532175360000000000000000, 0),
   (2783097421140216173669833173554685254745646937315554685903182520041762334418182818434647284243799923238034037601108551025390625, 0),
   (42219046860009752130088253505947911823492843068407559856526465968842398879684795044622867504644850148075697602560000000000000000, 0),
   (409115320907611777529465476512538732447610099785386538827767830446139063159472874309893150783838588715991003527362957000732421875, 0),
   (6248418935281443315253061518880290949876940774124318858765916963388675034193349666604184390687437821915203245178880000000000000000, 0),
   (60958182815234154851890356000368271134693904868022594285337406736474720410761458272174079466791949718682659525577080593109130859375, 0),
   (937262840292216497287959227832043642481541116118647828814887544508301255129002449990627658603115673287280486776832000000000000000000, 0),
   (9204685605100357382635443756055608941338779635071411737085948417207682782024980199098285999485584407521081588362139169559478759765625, 0),
   (142463951724416907587769802630470633657194249650034469979862906765261790779608372398575404107673582339666633990078464000000000000000000, 0),
   (1408316897580354679543222894676508168024833284165925995774150107832775465649821970462037757921294414350725483019407292942600250244140625, 0),
   (21939448565560203768516549605092477583207914446105308376898887641850315780059689349380612232581731680308661634472083456000000000000000000, 0),
   (218289119124954975329199548674858766043849159045718529344993266714080197175722405421615852477800634224362449868008130406103038787841796875, 0),
   (3422553976227391787888581738394426502980434653592428106796226472128649261689311538503375508282750142128151214977645019136000000000000000000, 0),
   (34271391702617931126684329141952826268884317970177809107163942874110590956588417651193688839014699573224904629277276473758177089691162109375, 0),
   (540763528243927902486395914666319387470908675267603640873803782596326583346911223083533330308674522456247891966467913023488000000000000000000, 0),
   (5449151280716251049142808333570499376752606557258271648039066916983583962097558406539796525403337232142759836055086959327550157260894775390625, 0),
   (86522164519028464397823346346611101995345388042816582539808605215412253335505795693365332849387923592999662714634866083758080000000000000000000, 0),
   (877313356195316418911992141704850399657169655718581735334289773634357017897706903452907240589937294374984333604869000451735575319004058837890625, 0),
   (14016590652082611232447382108150998523245952862936286371448994044896785040351938902325183921600843622065945359770848305568808960000000000000000000, 0),
   (143002077059836576282654719097890615144118653882128822859489233102400193917326225262823880216159778983122446377593647073632898776997661590576171875, 0),
   (2298720866941548242121370665736763757812336269521550964917635023363072746617717979981330163142538354018815039002419122113284669440000000000000000000, 0),
   (23595342714873035086638028651151951498779577890551255771815723461896031996358827168365940235666363532215203652302951767149428298204614162445068359375, 0),
   (381587663912297008192147530512302783796847820740577460176327413878270075938541184676900807081661366767123296474401574270805255127040000000000000000000, 0),
   (3940422233383796859468550784742375900296189507722059713893225818136637343391924137117112019356282709879939009934592945113954525800170565128326416015625, 0),
   (64106727537265897376280785126066867677870433884417013309623005531549372757674919025719335589719109616876713807699464477495282861342720000000000000000000, 0),
   (665931357441861669250185082621461527150056026805028091647955163265091711033235179172791931271211777969709692678946207724258314860228825506687164306640625, 0),
   (10898143681335202553967733471431367505237973760350892262635910940363393368804736234372287050252248634869041347308908961174198086428262400000000000000000000, 0),
   (113874262122558345441781649128269921142659580583659803671800332918330682586683215638547420247377214032820357448099801520848171841099129161643505096435546875, 0),
   (1874480713189654839282450157086195210900931486780353469173376681742503659434414632312033372643386765197475111737132341321962070865661132800000000000000000000, 0),
   (19700247347202593761428225299190696357680107440973146035221457594871208087496196305468703702796258027677921838521265663106733728510149344964326381683349609375, 0),
   (326159644094999942035146327332997966696762078699781503636167542623195636741588146022293806839949297144360669442261027390021400330625037107200000000000000000000, 0),
   (3447543285760453908249939427358371862594018802170300556163755079102461415311834353457023147989345154843636321741221491043678402489276135368757116794586181640625, 0),
   (57404097360719989798185753610607642138630125851161544639965487501682432066519513699923710003831076297407477821837940820643766458190006530867200000000000000000000, 0),
   (610215161579600341760239278642431819679141327984143198440984649001135670510194680561893097194114092407323628948196203914731077240601875960270009672641754150390625, 0),
   (10217929330208158184077064142688160300676162401506754945913856775299472907840473438586420380681931580938531052287153466074590429557821162494361600000000000000000000, 0),
   (109228513922748461175082830876995295722566297709161632520936252171203285021324847820578864397746422540910929581727120500736862826067735796888331731402873992919921875, 0),
   (1839227279437468473133871545683868854121709232271215890264494219553905123411285218945555668522747684568935589411687623893426277320407809248985088000000000000000000000, 0),
   (19770361020017471472689992388736148525784499885358255486289461642987794588859797455524774455992102479904878254292608810633372171518260179236788043383920192718505859375, 0),
   (334739364857619262110364621314464131450151080273361292028137947958810732460853909848091131671140078591546277272927147548603582472314221283315286016000000000000000000000, 0),
   (3617976066663197279502268607138715180218563479020560753990971480666766409761342934361033725446554753822592720535547412345907107387841612800332211939257395267486572265625, 0),
   (61592043133801944228307090321861400186827798770298477733177382424421174772797119412048768227489774460844515018218595148943059174905816716130012626944000000000000000000000, 0),
   (669325572332691496707919692320662308340434243618803739488329723923351785805848442856791239207612629457179653299076271283992814866750698368061459208762618124485015869140625, 0),
   (11456120022887161626465118799866220434749970571275516858370993130942338507740264210641070890313098049717079793388658697703409006532481909200182348611584000000000000000000000, 0),
   (125163882026213309884380982463963851659661203556716299284317658373666783945693658814219961731823561708492595166927262730106656380082380594827492872038609589278697967529296875, 0),
   (2153750564302786385775442334374849441732994467399797169373746708617159639455169671600521327378862433346811001157067835168240893228106598929634281538977792000000000000000000000, 0),
   (23655973702954315568148005685689167963675967472219380564736037432623022165736101515887572767314653162905100486549252655990158055835569932422396152815297212373673915863037109375, 0),
   (409212607217529413297334043531221393929268948805961462181011874637260331496482237604099052201983862335894090219842888681965769713340253796630513492405780480000000000000000000000, 0),
   (4518290977264274273516269085966631081062109787193901687864583149630997233655595389534526398557098754114874192930907257294120188664593857092677665187721767563371717929840087890625, 0),
   (78568820585765647353088136357994507634419638170744600738754279930353983647324589619987018022780901568491665322209834626937427784961328728953058590541909852160000000000000000000000, 0),
   (872030158612004934788639933591559798644987188928423025757864547878782466095529910180163594921520059544170719235665100657765196412266614418886789381230301139730741560459136962890625, 0),
   (15242351193638535586499098453450934481077409805124452543318330306488672827580970386277481496419494904287383072508707917625860990282497773416893366565130511319040000000000000000000000, 0),
   (170045880929340962283784787050354160735772501841042490022783586836362580888628332485131901009696411611113290250954694628264213300391989811682923929339908722247494604289531707763671875, 0),
   (2987500833953152974953823296876383158291172321804392698490392740071779874205870195710386373298221001240327082211706751854668754095369563589711099846765580218531840000000000000000000000, 0),
   (33499038543080169569905603048919769664947182862685370534488366606763428435059781499570984498910193087389318179438074841768050020177221992901536014079962018282756437045037746429443359375, 0),
   (591525165122724289040857012781523865341652119717269754301097762534212415092762298750656501913047758245584762277917936867224413310883173590762797769659584883269304320000000000000000000000, 0),
   (6666308670072953744411215006735034163324489389674388736363184954745922258576896518414625915283128424390474317708176893511841954015267176587405666801912441638268530971962511539459228515625, 0),
   (118305033024544857808171402556304773068330423943453950860219552506842483018552459750131300382609551649116952455583587373444882662176634718152559553931916976653860864000000000000000000000000, 0),
   (1339928042684663702626654216353741866828222367324552136009000175903930373973956200201339808971908813302485337859343555595880232757068702494068539027184400769291974725364464819431304931640625, 0),
   (23897616670958061277250623316373564159802745636577698073764349606382181569747596869526522677287129433121624396027884649435866297759680213066817029894247229284079894528000000000000000000000000, 0),
   (272005392664986731633210805919809598966129140566884083609827035708497865916713108640871981221297489100404523585446741785963687249684946606295913422518433356166270869248986358344554901123046875, 0),
   (4875113800875444500559127156540207088599760109861850407047927319701965040228509761383410626166574404356811376789688468484916724742974763465630674098426434773952298483712000000000000000000000000, 0),
   (55761105496322279984808215213560967788056473816211237140014542320242062512926187271378756150365985265582927335016582066122555886185414054290662251616278838014085528196042203460633754730224609375, 0),
   (1004273442980341567115180194247282660251550582631541183851873027858604798287073010844982588990314327297503143618675824507892845297052801273919918864275845563434173487644672000000000000000000000000, 0),
   (11542548837738711956855300549207120332127690079955726087983010260290106940175720765175402523125758949975665958348432487687369068440380709238167086084569719468915704336580736116351187229156494140625, 0),
   (208888876139911045959957480403434793332322521187360566241189589794589798043711186255756378509985380077880653872684571497641711821786982664975343123769375877194308085430091776000000000000000000000000, 0),
   (2412392707087390798982757814784288149414687226710746752388449144400632350496725639921659127333283620544914185294822389926660135304039568230776920991675071369003382206345373848317398130893707275390625, 0),
   (43866663989381319651591070884721306599787729449345718910649813856863857589179349113708839487096929816354937313263760014504759482575266359644822055991568934210804697940319272960000000000000000000000000, 0),
   (509014861195439458585361898919484799526499004835967564753962769468533425954809110023470075867322843934976893097207524274525288549152348896693930329243440058859713645538873881994971005618572235107421875, 0),
   (9299732765748839766137307027560916999154998643261292409057760537655137808906022012106273971264549121067246710411917123075009010305956468244702275870212614052690595963347685867520000000000000000000000000, 0),
   (108420165434628604678682084469850262299144288030061091292594069896797619728374340434999126159739765758150078229705202670473886460969450314995807160128852732537119006499780136864928824196755886077880859375, 0),
   (1990142811870251709953383703898036237819169709657916575538360755058199491105888710590742629850613511908390796028150264338051928205474684204366287036225499407275787536156404775649280000000000000000000000000, 0),
   (23310335568445150005916648161017806394316021926463134627907725027811488241600483193524812124344049638002266819386618574151885589108431817724098539427703337495480586397452729425959697202302515506744384765625, 0),
   (429870847363974369349930880041975827368940657286109980316285923092571090078871961487600408047732518572212411942080457097019216492382531788143117999824707871971570107809783431540244480000000000000000000000000, 0),
   (5058342818352597551283912650940863987566576758042500214255976331035092948427304852994884230982658771446491899806896230590959172836529704446129383055811624236519287248247242285433254292899645864963531494140625, 0),
   (93711844725346412518284931849150730366429063288371975708950331234180497637194087604296888954405689048742305803373539647150189195339391929815199723961786316089802283502532788075773296640000000000000000000000000, 0),
   (1107777077219218863731176870556049213277080310011307546922058816496685355705579762805879646585202270946781726057710274499420058851200005273702334889222745707797723907366146060509882690145022444427013397216796875, 0),
   (20616605839576210754022685006813160680614393923441834655969072871519709480182699272945315569969251590723307276742178722373041622974666224559343939271592989539756502370557213376670125260800000000000000000000000000, 0),
   (244818734065447368884590088392886876134234748512498967869774998445767463610933127580099401895329701879238761458753970664371833006115201165488216010518226801423296983527918279372684074522049960218369960784912109375, 0),
   (4576886496385918787393036071512521671096395451004087293625134177477375504600559238593860056533173853140574215436763676366815240300375901852174354518293643677825943526263701369620767807897600000000000000000000000000, 0),
   (54594577696594763261263589711613773377934348918287269834959824653406144385238087450362166622658523519070243805302135458154918760363689859903872170345564576717395227326725776300108548618417141128696501255035400390625, 0),
   (1025222575190445808376040080018804854325592581024915553772030055754932113030525269445024652663430943103488624257835063506166613827284202014887055412097776183833011349883069106795051988969062400000000000000000000000000, 0),
   (12283779981733821733784307685113099010035228506614635712865960547016382486678569676331487490098167791790804856192980478084856721081830218478371238327752029761413926148513299667524423439143856753956712782382965087890625, 0),
   (231700301993040752692985058084249897077583923311630915152478792600614657544898710894575571501935393141388429082270724352393654724966229655364474523134097417546260565073573618135681749507008102400000000000000000000000000, 0),
   (2788418055853577533569037844520673475277996871001522306820573044172718824476035316527247660252284088736512702355806568525262475685575459594590271100399710755840961235712519024528044120685655483148173801600933074951171875, 0),
   (52827668854413291614000593243208976533689134515051848654765164712940141920236906083963230302441269636236561830757725152345753277292300361423100191274574211200547408836774784934935438887597847347200000000000000000000000000, 0),
   (638547734790469255187309666395234225838661283459348608261911227115552610805012087484739714197773056320661408839479704192285106931996780247161172081991533763087580122978166856616922103637015105640931800566613674163818359375, 0),
   (12150363836515057071220136445938064602748500938461925190595987883976232641654488399311542969561492016334409221074276785039523253777229083127313043993152068576125904032458200535035150944147504889856000000000000000000000000000, 0),
   (147504526736598397948268532937299106168730756479109528508501493463692653095957792208974873979685576010072785441919811668417859701291256237094230750940044299273231008407956543878509005940150489403055245930887758731842041015625, 0),
   (2818884410071493240523071655457630987837652217723166644218269189082485972863841308640277968938266147789582939289232214129169394876317147285536626206411279909661209735530302524128155019042221134446592000000000000000000000000000, 0),
   (34368554729627426721946568174390691737314266259632520142480847977040388171358165584691145637266739210346959007967316118741361310400862703242955764969030321730662824959053874723692598384055064030911872301896847784519195556640625, 0),
   (659618951956729418282398767377085651154010618947220994747074990245301717650138866221825044731554278582762407793680338106225638401058212464815570532300239498860723078114090790645988274455879745460502528000000000000000000000000000, 0),
   (8076610361462445279657443520981812558268852571013642233482999274604491220269168912402419224757683714431535366872319287904219907944202735262094604767722125606705763865377660560067760620252940047264289990945759229362010955810546875, 0),
   (155670072661788142714646109100992213672346506071544154760309697697891205365432772428350710556646809745531928239308559793069250662649738141696474645622856521731130646434925426592453232771587619928678596608000000000000000000000000000, 0),
   (1914156655666599531278814114472689576309718059330233209335470828081264419203793032239373356267571040320273881948739671233300118182776048257116421329950143768789266036094505552736059266999946791201636727854144937358796596527099609375, 0),
   (37049477293505577966085773966036146854018468445027508832953708052098106876972999837947469112481940719436598920955437230750481657710637677723760965658239852172009093851512251529003869399637853543025505992704000000000000000000000000000, 0),
   (457483440704317287975636573358972808738022616179925737031177527911422196189706534705210232147949478636545457785748781424758728245683475533450824697858084360740634582626586827103918164812987283097191177957140640028752386569976806640625, 0),
   (8891874550441338711860585751848675244964432426806602119908889932503545650473519961107392586995665772664783741029304935380115597850553042653702631757977564521282182524362940366960928655913084850326121438248960000000000000000000000000000, 0),
   (110253509209740466402128414179512446905863450499362102624513784226652749281719274863955665947655824351407455326365456323366853507209717603561648752183798330938492934413007425332044277719929935226423073887670894246929325163364410400390625, 0),
   (2151833641206803968270261751947379409281392647287197713017951363665858047414591830587989006052951116984877665329091794361987974679833836322196036885430570614150288170895831568804544734730966533778921388056248320000000000000000000000000000, 0),
   (26791602737966933335717204645621524598124818471344990937756849567076618075457783791941226825280365317392011644306805886578145402251961377665480646780662994418053783062360804355686759485942974260020806954704027302003826014697551727294921875, 0),
   (525047408454460168257943867475160575864659805938076241976380132734469363569160406663469317476920072544310150340298397824325065821879456062615833000045059229852670313698582902788308915274355834242056818685724590080000000000000000000000000000, 0),
   (6563942670801898667250715138177273526540580525479522779750428143933771428487157029025600572193689502761042852855167442211645623551730537528042758461262433632423176850278397067143256074056028693705097703902486688990937373600900173187255859375, 0),
   (129161662479797201391454191398889501662706312260766755526189512652679463438013460039213452099322337845900296983713405864783966192182346191403494918011084570543756897169851394085923993157491535223545977396688249159680000000000000000000000000000, 0),
   (1621293839688068970810926639129786561055523389793442126598355751551641542836327786169323341331841307181977584655226358226276469017277442769426561339931821107208524682018764075584384250291839087345159132863914212180761531279422342777252197265625, 0),
   (32032092294989705945080639466924596412351165440670155370494999137864506932627338089724936120631939785783273651960924654466423615661221855468066739666748973494851710498123145733309150303057900735439402394378685791600640000000000000000000000000000, 0),
   (403702166082329173731920733143316853702825324058567089522990582136358744166245618756161511991628485488312418579151363198342840785302083249587213773643023455694922645822672254820511678322667932748944624083114638833009621288576163351535797119140625, 0),
   (8008023073747426486270159866731149103087791360167538842623749784466126733156834522431234030157984946445818412990231163616605903915305463867016684916687243373712927624530786433327287575764475183859850598594671447900160000000000000000000000000000000, 0),
   (101329243686664622606712104018972530279409156338700339470270636116226044785727650307796539509898749857566417063366992162784053037110822895646390657184398887379425584101490735959948431258989651119985100644861774347085414943432617001235485076904296875, 0),
   (2018021814584351474540080286416249573978123422762219788341184945685463936755522299652670975599812206504346240073538253231384687786656976894488204599005185330175657761381758181198476469092647746332682350845857204870840320000000000000000000000000000000, 0),
   (25636298652726149519498162316800050160690516553691185885978470937405189330789095527872524496004383713964303517031849017184365418389038192598536836267652918506994672777677156197866953108524381733356230463150028909812609980688452101312577724456787109375, 0),
   (512577540904425274533180392749727391790443349381603826238660976204107839935902664111778427802352300452103944978678716320771710697810872131200003968147317073864617071390966578024413023149532527568501317114847730037193441280000000000000000000000000000000, 0),
   (6537256156445168127472031390784012790976081721191252400924510089038323279351219359607493746481117847060897396843121499382013181689204739112626893248251494219283641558307674830456073042673717342005838768103257372002215545075555285834707319736480712890625, 0),
   (131219850471532870280494180543930212298353497441690579517097209908251607023591082012615277517402188915738609914541751378117557938639583265587201015845713170909341970276087443974249733926280327057536337181401018889521520967680000000000000000000000000000000, 0),
   (1680074832206408208760312067431491287280853002346151867037599092882849082793263375419125892845647286694650630988682225341177387694125617951945111564800634014355895880485072431427210771967145356895500563402537144604569395084417708459519781172275543212890625, 0),
   (33854721421655480532367498580333994772975202339956169515411080156328914612086499159254741599489764740260561357951771855554329948169012482521497862088193998094610228331230560545356431352980324380844374992801462873496552409661440000000000000000000000000000000, 0),
   (435139381541459726068920825464756243405740927607653333562738165056657912443455214233553606247022647253914513426068696363364943412778535049553783895283364209718177033045633759739647589939490647435934645921257120452583473326864186491015623323619365692138671875, 0),
   (8802227569630424938415549630886838640973552608388604074006880840645517799142489781406232815867338832467745953067460682444125786523943245455589444142930439504598659366119945741792672151774884339019537498128380347109103626511974400000000000000000000000000000000, 0),
   (113571378582320988503988335446301379528898382105597520059874661079787715147741810914957491230472910933271688004203929750838250230735197647933537596668958058736444205624910411292048020974207058980778942585448108438124286538311552674155077687464654445648193359375, 0),
   (2306183623243171333864874003292351723935070783397814267389802780249125663375332322728432997757242774106549439703674698800360956069273130309364434365447775150204848753923425784349680103765019696823118824509635650942585150146137292800000000000000000000000000000000, 0),
   (29869272567150419976548932222377262816100274493772147775747035863984169083856096270633820193614375575450453945105633524470459810683356981406520387923935969447684826079351438169808629516216456511944861899972852519226687359575938353302785431803204119205474853515625, 0),
   (608832476536197232140326736869180855118858686817022966590907933985769175131087733200306311407912092364129052081770120483295292402288106401672210672478212639654080071035784407068315547393965199961303369670543811848842479638580245299200000000000000000000000000000000, 0),
   (7915357230294861293785467038929974646266572740849619160572964503955804807221865511717962351307809527494370295452992883984671849831089600072727902799843031903636478911028131114999286821797360975665388403492805917595072150287623663625238139427849091589450836181640625, 0),
   (161949438758628463749326912007202107461616410693328109113181510440214600584869337031281478834504616568858327853750852048556547779008636302844808038879204562147985298895518652280171935606794743189706696332364653951792099583862345249587200000000000000000000000000000000, 0),
   (2113400380488727965440719699394303230553174921806848315872981522556199883528238091628695947799185143840996868885949100023907383904900923219418350047558089518270939869244511007704809581419895380502658703732579179997884264126795518187938583227235707454383373260498046875, 0),
   (43402449587312428284819612417930164799713198065811933242332644797977512956744982324383436327647237240454031864805228349013154804774314529162408554419626822655660060103998998811086078742620991174841394617073727259080282688475108526889369600000000000000000000000000000000, 0),
   (568504702351467822703553599137067569018804053966042196969832029567617768669096046648119209957980803693228157730320307906431086270418348346023536162793126080414882824826773461072593777401951857355215191304063799419430867050107994392555478888126405305229127407073974609375, 0),
   (11718661388574355636901295352841144495922563477769221975429814095453928498321145227583527808464754054922588603497411654233551797289064922873850309693299242117028216228079729678993241260507667617207176546609906359951676325888279302260129792000000000000000000000000000000000, 0),
   (154064774337247779952663025366145311204095898624797435378824480012824415309325028641640305898612797800864830744916803442642824379283372401772378300116937167792433245528055607950672913675928953343263316843401289642665764970579266480382534778682255837717093527317047119140625, 0),
   (3187475897692224733237152335972791302890937265953228377316909433963468551543351501902719563902413102938944100151295969951526088862625659021687284236577393855831674814037686472686161622858085591880352020677894529906855960641611970214755303424000000000000000000000000000000000, 0),
   (42059683394068643927077005924957669958718180324569699858419083043501065379445732819167803510321293799636098793362287339841491055544360665683859275931923846807334276029159180970533705433528604262710885498248552072447753836968139749144431994580255843696766532957553863525390625, 0),
   (873368395967669576906979740056544816992116810871184575384833184905990383122878311521345160509261190205270683441455095766718148348359430571942315880822205916497878899046326093516008284663115452175216453665743101194478533215801679838842953138176000000000000000000000000000000000, 0),
   (11566412933368877079946176629363359238647499589256667461065247836962792979347576525271145965338355794899927168174629018456410040274699183063061300881279057872016925908018774766896768994220366172245493512018351819923132305166238431014718798509570357016610796563327312469482421875, 0),
   (241049677287076803226326408255606369489824239800446942806213959034053345741914413979891264300556088496654708629841606431614208944147202837856079183106928832953414576136786001810418286567019864800359741211745095929676075167561263635520655066136576000000000000000000000000000000000, 0),
   (3203896382543178951145090926333650509105357386224096886715073650838693655279278697500107432398724555187279825584372238112425581156091673708467980344114299030548688476521200610430405011399041429712001702829083454118707648531048045391077107187150988893601190648041665554046630859375, 0),
   (67011810285807351296918741495058570718171138664524250100127480611466830116252207086409771475554592602070008999095966587988750086472922388923990012903726215561049252166026508503296283665631522414500008056865136668449948896582031290674742108385968128000000000000000000000000000000000, 0),
   (893887090729546927369480368447088492040394710756523031393505548583995529822918756602529973639244150897251071338039854433366737142549576964662566516007889429523084084949414970310082998180332558889648475089314283699119433940162404664110512905215125901314732190803624689579010009765625, 0),
   (18763306880026058363137247618616399801087918826066790028035694571210712432550617984194736013155285928579602519746870644636850024212418268898717203613043340357093790606487422380922959426376826276060002255922238267165985691042968761388927790348071075840000000000000000000000000000000000, 0),
   (251182272495002686590823983533631866263350913722582971821575059152102743880240170605310922592627606402127551045989199095776053137056431127070181190998216929695986627870785606657133322488673449047991221500097313719452560937185635710615054126365450378269439745615818537771701812744140625, 0),
   (5291252540167348458404703828449824743906793108950834787906065869081420905979274271542915555709790631859447910568617521787591706827901951829438251418878221980700448951029453111420274558238265009848920636170071191340807964874117190711677636878156043386880000000000000000000000000000000000, 0),
   (71084583116085760305203187340017818152528308583490981025505741740045076518107968281302991093713612611802096946014943344104623037786970008960861277052495391103964215687432326683968730264294586080581515684527539782605074745223534906104060317761422457050251448009276646189391613006591796875, 0),
   (1502715721407526962186935887279750227269529242942037079765322706819123537298113893118188017821580539448083206601487376187676044739124154319560463402961415042518927502092364683643357974539667262797093460672300218340789462024249282162116448873396316321873920000000000000000000000000000000000, 0),
   (20259106188084441686982908391905078173470567946294929592269136395912846807660770960171352461708379594363597629614258853069817565769286452553845463959961186464629801470918213104931088125323957032965731970090348838042446302388707448239657190562005400259321662682643844163976609706878662109375, 0),
   (429776696322552711185463663762008564999085363481422604812882294150269331667260573431801773096972034282151797088025389589675348795389508135394292533246964702160413265598416299522000380718344837159968729752277862445465786138935294698365304377791346468055941120000000000000000000000000000000000, 0),
   (5814363475980234764164094708476757435786053000586644792981242145626987033798641265569178156510304943582352519699292290831037641375785211882953648156508860515348753022153527161115222291967975668461165075415930116518182088785559037644781613691295549874425317189918783275061286985874176025390625, 0),
   (123775688540895180821413535163458466719736584682649710186110100715277567520171045148358910651927945873259717561351312201826500453072178342993556249575125834222199020492343894262336109646883313102070994168656024384294146408013364873129207660803907782800111042560000000000000000000000000000000000, 0),
   (1680351044558287846843423370749782898942169317169540345171578980086199252767807325749492487231478128695299878193095472050169878357601926234173604317231060688935789623402369349562299242378744968185276706795203803673754623659026561879341886356784413913708916667886528366492711938917636871337890625, 0),
   (35894949676859602438209925197402955348723609557968415953971929207430494580849603093024084089059104303245318092791880538529685131390931719468131312376786491924437715942779729336077471797596160799600588308910247071445302458323875813207470221633133257012032202342400000000000000000000000000000000000, 0),
   (488982153966461763431436200888186823592171271296336240444929483205083982555431931793102313784360135450332264554190782366599434602062160534144518856314238660480314780410089480722629079532214785741915521677404306869062595484776729506888488929824264448889294750354979754649379174225032329559326171875, 0),
   (10481325305643003911957298157641662961827293990926777458559803328569704417608084103163032554005258456547632883095229117250668058366152062084694343214021655641935813055291680966134621764898078953483371786201792144862028317830571737456581304716874911047513403083980800000000000000000000000000000000000, 0),
   (143271771112173296685410806860238739312506182489826518450364338579089606888741556015378977938817519686947353514377899233413634338404213036504344024900071927520732230660156217851730320302938932222381247851479461912635340477039581745518327256438509483524563361854009068112268098047934472560882568359375, 0),
   (3081509639859043150115445658346648910777224433332472572816582178599493098776776726329931570877545986225004067629997360471696409159648706252900136904922366758729129038255754204043578798880035212324111305143326890589436325442188090812234903586761223847968940506690355200000000000000000000000000000000000, 0),
   (42265172478091122522196188023770428097189323834498822942857479880831434032178759024536798491951168307649469286741480273857022129829242845768781487345521218618616008044746084266260444489366985005602468116186441264227425440726676614927906540649360297639746191746932675093119088924140669405460357666015625, 0),
   (912126853398276772434171914870608077590058432266411881553708324865449957237925910993659744979753611922601204018479218699622137111256017050858440523857020560583822195323703244396899324468490422847936946322424759614473152330887674880421531461681322258998806389980345139200000000000000000000000000000000000, 0),
   (12552756225993063389092267843059817144865229178846150414028671524606935907557091430287429152109496987371892378162219641335535572559285125193328101741619801929728954389289587027079352013341994546663933030507373055475545355895822954633588242572860008399004618948839004502656369410469778813421726226806640625, 0),
   (271813802312686478185383230631441207121837412815390740703005080809904087256901921476110604003966576352935158797506807172487396859154293081155815276109392127053979014206463566830275998691610146008685210004082578365112999394604527114365616375581034033181644304214142851481600000000000000000000000000000000000, 0),
   (3753274111571925953338588085074885326314703524474998973794572785857473836359570337655941316480739599224195821070503672759325136195226252432805102420744320776988957362397586521096726251989256369452515976121704543587188061412851063435442884529285142511302381065702862346294254453730463865213096141815185546875, 0),
   (81544140693805943455614969189432362136551223844617222210901524242971226177070576442833181201189972905880547639252042151746219057746287924346744582832817638116193704261939070049082799607483043802605563001224773509533899818381358134309684912674310209954493291264242855444480000000000000000000000000000000000000, 0),
   (1129735507583149711954915013607540483220725760866974691112166408543099624744230671634438336260702619366482942142221605500556865994763101982274335828644040553873676166081673542850114601848766167205207308812633067619743606485268170094068308243314827895902016700776561566234570590572869623429141938686370849609375, 0),
   (24626330489529394923595720695208573365238469601074401107692260321377310305475314085735620722759371817575925387054116729827358155439378953152716864015510926711090498687105599154823005481459879228386880026369881599879237745151170156561524843627641683406256973961801342344232960000000000000000000000000000000000000, 0),
   (342309858797694362722339249123084766415879905542693331406986421788559186297501893505234815886992893668044331469093146466668730396413219900629123756079144287823723878322747083483584724360176148663177814570227819488782312765036255538502697397724392852458311060335298154569074888943579495899030007421970367431640625, 0),
   (7486404468816936056773099091343406303032494758726617936738447137698702332864495482063628699718849032543081317664451485867516879253571201758425926660715321720171511600880102143066193666363803285429611528016444006363288274525955727594703552462803071755502120084387608072646819840000000000000000000000000000000000000, 0),
   (104404506933296780630313470982540853756843371190521466079130858645510551820738077519096618845532832568753521098073409672333962770906032069691882745604139007786235782888437860462493340929853725342269233443919484944078605393336057939243322706305939819999784873402265937143567841127791746249204152263700962066650390625, 0),
   (2290839767457982433372568321951082328727943396170345088641964824135802913856535617511470382113967803958182883205322154675460165051592787738078333558178888446372482549869311255778255261907323805341461127573031865947166212004942452643979287053617739957183648745822608070229926871040000000000000000000000000000000000000, 0),
   (32052183628522111653506235591640042103350914955490090086293173604171739408966589798362661985578579598607330977108536769406526570668151845395408002900470675390374385346750423161985455665465093680076654667283281877832131855754169787347700070835923524739933956134495642703075327226232066098505674744956195354461669921875, 0),
   (705578648377058589478751043160933357248206566020466287301725165833827297467812970193532877691102083619120328027239223640041730835890578623328126735919097641482724625359747866779702620667455732045170027292493814711727193297522275414345620412514263906812563813713363285630817476280320000000000000000000000000000000000000, 0),
   (9904124741213332500933426797816773009935432721246437836664590643689067477370676247694062553543781095969665271926537861746616710336458920227181072896245438695625685072145880757053505800628713947143686292190534100250128743428038464290439321888300369144639592445559153595250276112905708424438253496191464364528656005859375, 0),
   (218729380996888162738412823379889340746944035466344549063534801408486462215022020759995192084241645921927301688444159328412936559126079373231719288134920268859644633861521838701707812406911276934002708460673082560635429922231905378447142327879421811111894782251142618545553417646899200000000000000000000000000000000000000, 0),
   (3080182794517346407790295734121016406089919576307642167202687690187299985462280313032853454152115920846565899569153275003197796914638724190653313670732331434339588057437368915443640303995530037561686436871256105177790039206119962394326629107261414803982913250568896768122835871113675320000296837315545417368412017822265625, 0),
   (68243566871029106774384800894525474313046539065499499307822858039447776211086870477118499930283393527641318126794577710464836206447336764448296417898095123884209125764794813674932837470956318403408845039730001758918254135736354478075508406298379605066911172062356496986212666305832550400000000000000000000000000000000000000, 0),
   (964097214683929425638362564779878135106144827384291998334441247028624895449693737979283131149612283224975126565144975076000910434281920671674487178939219738948291061977896470533859415150600901756807854740703160920648282271515548229424234910572822833646651847428064688422447627658580375160092910079765715636312961578369140625, 0),
   (21428479997503139527156827480880998934296613266566842782656377424386601730281277329815208978108985567679373891813497401085958568824463744036765075220001868899641665490145571493928910965880283978670377342475220552300331798621215306115709639577691195991010108027579940053670777220031420825600000000000000000000000000000000000000, 0),
   (303690622625437769076084207905661612558435620626051979475348992814016842066653527463474186312127869215867164868020667148940286786798805011577463461365854217768711684523037388218165715772439284053394474243321495690004208915527397692268633996830439192598695331939840376853071002712452818175429266675126200425438582897186279296875, 0),
   (6771399679210992090581557483958395663237729792235122319319415266106166146768883636221606037082439439386682149813065178743162907748530543115617763769520590572286766294886000592081535865218169737259839240222169694526904848364304036732564246106550417933159194136715261056959965601529928980889600000000000000000000000000000000000000, 0),
   (96269927372263772797118693906094731181024091738458477493685630722043338935129168205921317060944534541429891263162551486214070911415221188670055917252975787032681603993802852065158531899863253044926048335132914133731334226222185068449156976995249224053786420224929399462423507859847543361611077536015005534864030778408050537109375, 0),
   (2153305097989095484804935279898769820909598073930768897543574054621760834672504996318470719792215741724964923640554726840325804664032712710766448878707547801987191681773748188281928405139377976448628878390649962859555741779848683680955430261883032902744623735475453016113269061286517415922892800000000000000000000000000000000000000, 0),
   (30710106831752143522280863356044219246746685264568254320485716200331825120306204657688900142441306518716135312948853924102288620741455559185747837603699276063425431674023109808785571676056377721331409418907399608660295618164877036835281075661484502473157868051752478428513099007291366332353933733988786765621625818312168121337890625, 0),
   (689057631356510555137579289567606342691071383657846047213943697478963467095201598821910630333509037351988775564977512588904257492490468067445263641186415296635901338167599420250217089644600952463561241085007988115057837369551578777905737683802570528878279595352144965156246099611685573095325696000000000000000000000000000000000000000, 0),
   (9857944292992438070652157137290194378205685969926409636875914900306515863618291695118136945723659392507879435456582109636834647258007234498625055870787467616359563567361418248620168508014097248547382423469275274379954893430925528824125225287336525293883675644612545575552704781340528592685612728610400551764541887678205966949462890625, 0),
   (221876557296796398754300531240769242346524985537826427202889870588226236404654914820655222967389910027340385731922759053627170912581930717717374892462025725516760230889967013320569902865561506693266719629372572173048623632995608366485647534184427710298806029703390678780311244074962754536694874112000000000000000000000000000000000000000, 0),
   (3184116006636557496820646755344732784160436568286230312710920512799004623948708217523158233468741983780045057652476021412697591064336336743055893046264352040084139032257738094304314428088553411280804522780575913624725430578188945810192447767809697669924427233209852220903523644372990735437452911341159378219947029720060527324676513671875, 0),
   (71888004564162033196393372122009234520274095314255762413736318070585300595108192401892292241434330848858284977142973933375203375676545552540429465157696335067430314808349312315864648528441928168618417159916713384067754057090577110741349801075754578136813153623898579924820843080287932469889139212288000000000000000000000000000000000000000, 0),
   (1034837702156881186466710195487038154852141884693024851631049166659676502783330170695026425877341144728514643737054706959126717095909309441493165240035914413027345185483764880648902189128779858666261469903687171928035764937911407388312545524538151742725438850793201971793645184421221989017172196185876797921482784659019671380519866943359375, 0),
   (23435489487916822822024239311775010453609355072447378546878039691010807994005270723016887270707591856727800902548609502280316300470553850128180005641409005231982282627521875814971875420272068582969603994132848563206087822611528138101680035150695992472601088081390937055491594844173865985183859383205888000000000000000000000000000000000000000, 0),
   (338391928605300147974614233924261476636650396294619126483353077497714216410148965817273641261890554326224288502016889175634436490362344187368265033491744013059941875653191115972191015845111013783867500658505705220467695134697030215978202386523975619871218504209377044776521975305739590408615308152781712920324870583499432541429996490478515625, 0),
   (7686840552036717885623950494262203428783868463762740163375997018651545022033728797149539024792090129006718696035943916747943746554341662842043041850382153716090188701827175267310775137849238495214030110075574328731596805816581229297351051529428285531013156890696227354201243108889028043140305877691531264000000000000000000000000000000000000000, 0),
   (111330944511143748683648082961082025813457980380929692613023162496747977198939009753883027975161992373327790917163556538783729605329211237644159196018783780296720877089899877154850844213041523534892407716648377017533871699315322941056828585166387978937630887884885047731475729875588325244434436382265183550786882421971313306130468845367431640625, 0),
   (2536657382172116902255903663106527131498676593041704253914079016155009857271130503059347878181389742572217169691861492526821436362932748737874203810626110726309762271602967838212555795490248703420629936324939528481426945919471805668125847004711334225234341773929755026886410225933379254236300939638205317120000000000000000000000000000000000000000, 0),
   (36850542633188580814287515460118150544254591506087728254910666786423580452848812228535282259778619475571498793581137214337414499363968919660216693882217431278214610316756859338255629434516744290049386954210612792803711532473371893489810261690074421028355823889896950799118466588819735655907798442529775755310458081672504704329185187816619873046875, 0),
   (842170250881142811548960016151367007657560628889845812299474233363463272614015327015703495556221394533976100337698015518904716872493672580974235665127868761134841074172185322286568524102762569535649138859879923455833746045264639481817781205564162962777801468944678668926288195009881912406451911959884165283840000000000000000000000000000000000000000, 0),
   (12271230696851797411157742648219344131236778971527213508885252039879052290798654472102248992506280285365309098262518692374359028288201650246852159062778404615645465235480034159639124601694075848586445855752134060003635940313632840532106817142794782202442489355335684616106449374076971973417296881362415326518382541196944066541618667542934417724609375, 0),
   (281284863794301699057352645394556580557625250049208501308024393943396733053081119223244967515777945774348017512791137183314175435412886642045394712152708166219036918773509897643713887050322698224906812379199894434248471179118389586927138922658430429567785690627522675421380257133300558743754938594601311204802560000000000000000000000000000000000000000, 0),
   (4110862283445352132737843787153480283964320955461616525476559433359482517417549248154253412489603895597378547917943761945410274476547552832695473286030765546241230853885811443479106741567515409276459361676964910101218040005067001578255783742836252037818233934037454346395660540315785611094794455256409134383658151300976262291442253626883029937744140625, 0),
   (94511714234885370883270488852571011067362084016534056439496196364981302305835256059010309085301389780180933884297822093593562946298729911727252623283309943849596404707899325608287866048908426603568688959411164529907486316183778901207518678013232624334775992050847618941583766396788987737901659367786040564813660160000000000000000000000000000000000000000, 0),
   (1385360589521083668732653356270722855695976161990564769085600529042145608369714096627983400008996512816316570648347047775603262498596525304618374497392367989083294797759518456452458971908252692926166804885137174704110479481707579531872199121335816936744744835770622114735337602086419750938945731421409878287292796988429000392216039472259581089019775390625, 0),
   (31944959411391255358545425232169001740768384397588511076549714371363680179372316547945484470831869745701155652892663867634624275848970710163811386669758761021163584791269972055601298724531048192006216868280973611108730374870117268608141313168472627025154285313186495202255313042114677855410760866311681710907017134080000000000000000000000000000000000000000, 0),
   (469637239847647363700369487775775048080935918914801456720018579345287361237333078756886372603049817844731317449789649195929505987024222078265628954616012748299236936440476756737383591476897662901970546856061502224693452544298869461304675502132841941556468499326240896895279447107296295568302602951857948739392258179077431132961237381095997989177703857421875, 0),
   (10861286199873026821905444578937460591861250695180093766026902886263651260986587626301464720082835713538392921983505714995772253788650041455695871467717978747195618829031790498904441566340556385282113735215531027776968327455839871326768046477280693188552457006483408368766806434318990470839658694545971781708385825587200000000000000000000000000000000000000000, 0),
   (160146298788047751021825995331539291395599148349947296741526335556742990181930579856098253057639987885053379250378270375811961541575259728688579473524060347170039795326202574047447804693622103049571956477916972258620467317605914486304894346227299102070755758270248145841290291463588036788791187606583560520132760039065404016339781946953735314309597015380859375, 0),
   (3714559880356575173091662045996611522416547737751592067981200787102168731257412968195100934268329814030130379318358954528554110795718314177847988041959548731540901639528872350625319015688470283766482897443711611499723167989897235993754671895229997070484940296217325662118247800537094741027163273534722349344267952350822400000000000000000000000000000000000000000, 0),
   (54930180484300378600486316398717976948690507884031922782343533095962845632402188890641700798770515844573309082879746738903502808760314086940182759418752699079323649796887482898274597009912381346003181071925521484706820289938828668802578760755963592010269225086695114023562569972010696618555377349058161258405536693399433577604545207805131212808191776275634765625, 0),
   (1277808598842661859543531743822834363711292421786547671385533070763146043552550061059114721388305456026364850485515480357822614113727100077179707886434084763650070163997932088615109741396833777615670116720636794355904769788524649181851607131959118992246819461898760027768677243384760590913344166095944488174428175608682905600000000000000000000000000000000000000000, 0),
   (18950912267083630617167779157557702047298225219991013359908518918107181743178755167271386775575827966377791633593512624921708469022308359994363051999469681182366659179926181599904735968419771564371097469814304912223853000028895890736889672460807439243542882654909814338129086640343690333401605185425065634149910159222804584273568096692770268418826162815093994140625, 0),
   (442121775199561003402061983362700689844107177938145494299394442484048531069182321126453693600353687785122238267988356203806624483349576626704178928706193328222924276743284502660827970523304487055021860385340330847143050346829528616920656067657855171317399533816970969607962326211127164456017081469196792908352148760604285337600000000000000000000000000000000000000000, 0),
   (6575966556678019824157219367672522610412484151336881635888256064583192064883028043043171211124812304333093696856948880847832838750741000918043979043815979370281230735434385015166943381041660732836770822025563804541676991010026874085700716343900181417509380281253705575330793064199260545690356999342497775050018825250313190742928129552391283141332678496837615966796875, 0),
   (153858377769447229183917570210219840065749297922474632016189265984448888812075447752005885372923083349222538917259947958924705320205652666093054267189755278221577648306663006925968133742109961495147607414098435134805781520696675958688388311544933599618455037768305897423570889521472253230693944351280483932106547768690291297484800000000000000000000000000000000000000000, 0),
   (2295012328280628918630869559317710391033956968816571690925001366539534030644176787022066752682559494212249700203075159415893660724008609320397348686291776800228149526666600370293263239983539595760033016886921767785045269862499379055909550004021163314710773718157543245790446779405541930445934592770531723492456570012359303569281917213784557816325104795396327972412109375, 0),
   (53850432219306530214371149573576944023012254272866121205666243094557111084226406713202059880523079172227888621040981785623646862071978433132568993516414347377552176907332052424088846809738486523301662594934452297182023532243836585540935909040726759866459263218907064098249811332515288630742880522948169376237291719041601954119680000000000000000000000000000000000000000000, 0),
   (805549327226500750439435215320516347252918896054616663514675479655376444756106052244745430191578382468499644771279380954978674914127021871459469388888413656880080483859976729972935397234222398111771588927309540492550889721737282048624252051411428323463481575073297679272446819571345217586523042062456634945852256074338115552817952942038379793530111783184111118316650390625, 0),
   (18955352141195898635458644649899084296100313504048874664394517569284103101647695163047125077944123868624216794606425588539523695449336408462664285717777850276898366271380882453279274077027947256202185233416927208608072283349830478110409439982335819472993660653055286562583933589045381598021493944077755620435526685102643887850127360000000000000000000000000000000000000000000, 0),
   (284358912510954764905120631008142270580280370307279682220680444318347884998905436442395136857627169011380374604261621477107472244686838720625192694277610020878668410802571785680446195223680506533455370891340267793870464071773260563164360974148234198182608996000874080783173727308684861808042633848047192135885846394241354790144737388539548067116129459463991224765777587890625, 0),
   (6710194657983348116952360206064275840819510980433301631195659219526572497983284087718682277592219849492972745290674658342991388189065088595783157144093358998022021660068832388460863023267893328695573572629592231847257588305839989251084941753746880093439755871181571443154712490522065085699608856203525489634176446526335936298945085440000000000000000000000000000000000000000000, 0),
   (100947413941388941541317824007890506055999531459084287188341557733013499174611429937050273584457644999040032984512875624373152646863827745821943406468551557411927285834912983916558399304406579819376656666425795066824014745479507499923348145822623140354826193580310298678026673194583125941855135016056753208239475469955680950501381772931539563826225958109716884791851043701171875, 0),
   (2388829298242071929635040233358882199331745909034255380705654682151459809282049135227850890822830266419498297323480178370104934195307171540098803943297235803295839710984504330292067236283370025015624191856134834537623701436879036173386239264333889313264553090140639433763077646625855170509060752808455074309766814963375593322424450416640000000000000000000000000000000000000000000, 0),
   (36038226777075852130250463170816910661991832730893090526237936110685819205336280487526947669651379264657291775471096597901215494930386505258433796109272905996058041043063935258211348551673148995517466429914008838856173264136184177472635288058676461106672951108170776628055522330466175961242283200732260895341492742774178099328993292936559624285962667045168927870690822601318359375, 0),
   (855200888770661750809344403542479827360765035434263426292624376210222611722973590411570618914573235378180390441805903856497566441919967411355371811700410417579910616532452550244560070589446468955593460684496270764469285114402694950072273656631532374148710006270348917287181797492056151042243749505426916602896519756888462409427953249157120000000000000000000000000000000000000000000, 0),
   (12937723412970230914759916278323270927655067950390619498919419063736209094715724695022174213404845156011967747394123678646536362680008755387777732803228973252584836734459952757697874130050660489390770448339129173149366201824890119712676068413064849537295589447833308809471932516637357170085979669062881661427595894655929937659108592164224905118660597469215645105578005313873291015625, 0),
   (307872319957438230291363985275292737849875412756334833465344775435680140220270492548165422809246364736144940559050125388339123919091188268087933852212147750328767821951682918088041625412200728824013645846418657475208942641184970182026018516387351654693535602257325610223385447097140214375207749821953689977042747112479846467394063169696563200000000000000000000000000000000000000000000, 0),
   (4670518152082253360228329776474700804883479530091013639109910282008771483192376614903004891039149101320320356809278647991399626927483160694987761541965659344183126061140042945528932560948288436670068131850425631506921198858785333216276060697116410682963707790667824480219367638506085938401038660531700279775362117970790707494938201771285190747836475686386847883113659918308258056640625, 0),
   (111449779824592639365473762669655971101654899417793209714454808707716210759737918302435883056947184034484468482376145390578762858711010153047832054500797485619013951546509216347871068399216663834292939796403554006025637236108959205893418702932221298999059888017151870900865531849164757603825205435547235771689474454717704421196650867430155878400000000000000000000000000000000000000000000, 0),
   (1695398089205857969762883708860316392172703069423037950996897432369184048398832711209790775447211123779276289521768149220878064574676387332280557439733534341938474760193835589227002519624228702511234731861704504237012395185739075957508210033053257077915825928012420286319630452777709195639577033773007201558456448823397026820662567242976524241464640674158425781570258550345897674560546875, 0),
   (40567719856151720729032449611754773481002383388076728336061550369608700716544602262086661432728774988552346527584916922170669680570807695709410867838290284765321078362929354750625068897314865635682630085890893658193331953943661150945204407867328552835657799238243281007915053593095971767792374778539193820894968701517244409315580915744576739737600000000000000000000000000000000000000000000, 0),
   (618820302560138158963452553734015483143036620339408852113867562814752177665573939591573633038232060179435845675445374465620493569756881376282403465502740034807543287470749990067855919662843476416600677129522144046509524242794762724490496662064438833439276463724533404506665115263863856408445617327147628568836603820539914789541837043686431348134593846067825410273144370876252651214599609375, 0),
   (14847785467351529786825876557902247094046872320036082570998527435276784462255324427923718084378731645810158829096079593514465103088915616629644377628814244224107514680832143838728775216417240822659842611436067078898759495143379981245944813279442250337850754521197040848896909615073125667012009168945344938447558544755311453809502615162515086743961600000000000000000000000000000000000000000000, 0),
   (227107051039570704339587087220383682313494439664563048725789395553014049203265635830107523325031166085852955362888452428882721140100775465095642071839505592774368386501765246354903122516263555844892448506534626865068995397105677919888012274977649051872214462186903759453946097301838035301899541559063179684763033602138148727761854195032920304765395941506891925570243984111584722995758056640625, 0),
   (5463985051985362961551922573308026930609249013773278386127458096181856682109959389475928255051373245658138449107357290413323157936720946919709130967403641874471565402546228932652189279641544622738822081008472685034743494212763833098507691286834748124329077663800511032394062738346910245460419374171886937348701544469954615001896962379805551921777868800000000000000000000000000000000000000000000, 0),
   (83802501833601589901307635184321578773679448236223764979816286959062184156005019621309676106936500285679740528905838946257724100697186146620291924508777563733741934619151375904959252208501252106765313498911277313210459301531995152438676529466752500140847136546967487238506109904378235026400930835294313303677559399188976880544124197967147592458431102416043120535420030137174762785434722900390625, 0),
   (2021674469234584295774211352123969964325422135096113002867159495587286972380684974106093454369008100893511226169722197452929568436586750360292378457939347493554479198942104705081310033467371510413364169973134893462855092858722618246447845776128856806001758735606189081985803213188356790820355168443598166819019571453883207550701876080528054211057811456000000000000000000000000000000000000000000000, 0),
   (31090728180266189853385132653383305725035075295639016807511842461812070321877862279505889835673441605987183736224066249061615641358656060396128303992756476145218257743705160460739882569353964531609931308096083883201080400868370201554748992432165177552254287658924937765485766774524325194794745339894190235664374537099110422681870077445811756802077938996351997718640831180891836993396282196044921875, 0),
   (752062902555265358028006622990116826729057034255754037066583332358470753725614810367466765025271013532386176135136657452489799458410271134028764786353437267602266262006462950290247332449862201873771471230006180368182094543444813987678598628719934731832654249645502338498718795306068726185172122661018518056675280580844553208861097901956436166513505861632000000000000000000000000000000000000000000000, 0),
   (11596841611239288815312654479711973035438083085273353269201917238255902230060442630255696908706193719033219533611576710899982634226778710527755857389298165602166410138402024851855976198369028770290504377919839288434002989523902085179921374177197611226990849296779001786526191006897573297658440011780532957902811702337968187660337538887287785287175071245639295149053030030472655198536813259124755859375, 0),
   (281271525555669243902474476998303693196667330811652009862902166302068061893379939077432570119451359061112429874541109887231184997445441404126758030096185538083247581990417143408552502336248463500790530240022311457700103359248360431391795887141255589705412689367417874598520829444469703593254373875220925753196554937235862900114050615331707126276051192250368000000000000000000000000000000000000000000000, 0),
   (4348815604214733305742245429891989888289281156977507475950718964345963336272665986345886340764822644637457325104341266587493487835042016447908446520986812100812403801900759319445991074388385788858939141719939733162751121071463281942470515316449104210121568486292125669947321627586589986621915004417699859213554388376738070372626577082732919482690651717114735680894886261427245699451304972171783447265625, 0),
   (105758093608931635707330403351362188641946916385181155708451214529577591271910857093114646364913711006978273632827457317598925559039485967951661019316165762319301090828396845921615740878429422276297239370248389108095238863077383522203315253565112101729235171202149120849043831871120608551063644577083068083201904656400684450442883031364721879479795248286138368000000000000000000000000000000000000000000000, 0),
   (1639503482788954456264826527069280187885058996180520318433421049558428177774795076852399150468338137028321411564336657503485044913810840200861484338412028162006276233316586263431138635044421442399820056428417279402357172643941657292311384274301312287215831319332131377570140253600144424956461956665472846923510004418030252530480219560190310644974375697352255351697372120558071628693141974508762359619140625, 0),
   (39976559384176158297370892466814907306655934393598476857794559092180329500782303981197336325937382760637787433208778866052393861316925695885727865301510658156695812333134007758370750052046321620440356481953891082860000290243250971392853165847612374453650894714412367680938568447283590032302057650137399735450319960119458722267409785855864870443362603852160303104000000000000000000000000000000000000000000000, 0),
   (621371819977013738924369253759257191208437359552417200686266577782644279376647334127059278027500153933733814982883593193820832022334308436126502564258158673400378692426986193840401542681835726669531801386370148893493368432053888113786014639960197356854800070026877792099083156114454737058499081576214208984010291674433465709052003213312127734445288389296504778293304033691509147274700808338820934295654296875, 0),
   (15191092565986940153000939137389664776529255069567421205961932455028525210297275512854987803856205449042359224619335969099909667300431764436576588814574050099544408686590922948180885019777602215767335463142478611486800110292435369129284203022092702292387339991476699718756656009967764212274781907052211899471121584845394314461615718625228650768477789463820915179520000000000000000000000000000000000000000000000, 0),
   (236742663411242234530184685682276989850414633989470953461467566135187470442502634302409584928477558648752583508478649006845737000509371514164197476982358454565544281814681739853192987761779411861091616328207026728420973372612531371352471577824835192961678826680240438789750682479607254819288150080537613622907921127959150435148813224271920666823654876321968320529748836836464985111661007977090775966644287109375, 0),
   (5802997360207011138446358750482851944634175436574754900677458197820896630333559245910605341073070481534181223804586340196165492908764934014772256927167287138025964118277732566205098077555044046423122146920426829587957642131710311007386565554439412275691963876744099292565042595807685929088966688493944945597968445410940628124337204514837344593558515575179589598576640000000000000000000000000000000000000000000000, 0),
   (90672440086505775825060734616312087112708804817967375175742077829776801179478508937822871027606904962472239483747322569621917271195089289924887633684243288098603459935023106363772914312761514742798089053703291236985232801710599515227996614306911878904322990618532088056474511389689578595787361480845906017573733792008354616661995464896145615393459817631313866762893804508366089297766166055225767195224761962890625, 0),
   (2228350986319492277163401760185415146739523367644705881860143947963224306048086750429672450972059064909125589940961154635327549276965734661672546660032238261001970221418649305422757661781136913826478904417443902561775734578576759426836441172904734313865714128669734128344976356790151396770163208381674859109619883037801201199745486533697540323926469980868962405853429760000000000000000000000000000000000000000000000, 0),
   (34908889433304723692648382827280153538392889854917439442660699964464068454099225941061805345628658410551812201242719189304438149410109376621081738968433665917962332074983895950052572010413183175977264285675767126239314628658580813362778696508161073378164351388134853901742686885030487759378134170125673816765887509923216527414868253985016061926482029788055838703714114735720944379639973931261920370161533355712890625, 0),
   (860143480719324018985073079431570246641456019910856470398015563913804582134561485665853566075214799054922477717211005689236434020908773579405603010772443968746760505467598631893184457447518848737020857105133346388845433547330629138758866292741227445152165653666517373541160873720998439153282998435326495616313274852591263663101757802007250565035617412615419488659423887360000000000000000000000000000000000000000000000, 0),
   (13509740210688928069054924154157419419358048373853049064309690886247594491736400439190918668758290804883551321880932326260817563821712328752358632980783828710251422513018767732670345368029901889103201278556521877854614761290870774771395355548658335397349603987208188459974419824506798762879337923838635767088398466340284796109554014292201215965548545527977609578337362402724005474920669911398363183252513408660888671875, 0),
   (333735670519097719366208354819449255696884935725412310514430038798556177868209856438351183637183342033309921354277870207423736400112604148809373968179708259873743076121428269174555569489637313309964092556791738398872028216364284105838440121583596248719040273622608740933970419003747394391473803392906680299129550642805410301283482027178813219233819556094782761599856468295680000000000000000000000000000000000000000000000, 0),
   (5255288941957993018862365495967236154130280817428836086016469754750314257285459770845267362146975123099701464211682674915458032326646095884667508229524909368287803357564300648008764348163631834861145297358487010485445142142148731386072793308428092469568995951023985310930049311733144718760062452373229313397387003406370785686616511559666273010598384210383290125973233974659638129744140595533963278285227715969085693359375, 0),
   (130156911502448110552821258379585209721785124932910801100627715131436909368601844010956961618501503392990869328168369380895257196043915618035655847590086221350759799687357024978076672100958552190885996097148777975560091004382070801276991647417602537000425706712817408964248463411461483812674783323233605316660524750694110017500557990599737155501189626876965277023944022635315200000000000000000000000000000000000000000000000, 0),
   (2054817976305575270375184908923189336264939799614674909632439674107372874598614770400499538599467273131983272506767925891944090639718623490904995717744239563000531112807641553371426860131980047430707811267168421099809050577580153971954462183595384155601477416850378256573649280887659585035184418877932661538378318331890977203467056019829512747143968226259866439255534484091918508729958972853779641809524036943912506103515625, 0),
   (51021509308959659336705933284797402210939768973701034031446064331523268472491922852295128954452589330052420776642000797310940820849214922269977092255313798769497841477443953791406055463575752458827310470082320966419555673717771754100580725787700194504166877031424424313985397657292901654568515062707573284130925702272091126860218732315096964956466333735770388593386056873043558400000000000000000000000000000000000000000000000, 0),
   (807543464688091081257447669206813409152121341248567239485548791924197539717255604767396318669590638340869426095159794875534027621409419031925663317073486148259208727333403130474970756031868158640268169827997189492224956876989000510978103638152985973151380624822198654833444167388850216918827476619027535984582679104433154040962553015792998509627579512920127510627425052248123973930873876331535399231142946518957614898681640625, 0),
   (20102474667730105778662137714210176471110268975638207408389749346620167778161817603804280808054320196040653785996948314140510683414590679374370974348593636715182149542112917793813985852648846468777960325212434460769304935444802071115628805960353876634641749550381223179710246676973403251899994934706783873947584726695203903982926180532148204192847735491893533105794106407979162009600000000000000000000000000000000000000000000000, 0),
   (318979668551795977096691829336691296615087929793184059596791772810058028188315963883121545874488302144643423307588118975835940910456720517610637010244027028562387447296694236537613448632587922662905927082058889849428857966410655201836350937070429459394795346804768468659210446118595835682936853264515876713910158246251095846180208441238234411302893907603450366697832895638008969702695181150956482696301463874988257884979248046875, 0),
   (7960579968421121888350206534827229882559666514352730133722340741261586440152079771106495199989510797632098899254791532399642230632177909032250905842043080139212131218676715446350338397648943201636072288784124046464644754436141620161789007160300135147318132821950964379165257684081467687752397994143886414083243551771300745977238767490730688860367703254789839109894466137559748155801600000000000000000000000000000000000000000000000, 0),
   (1266349284150630029073866562466664447561899081278940716599263338055930371907614376615992537121718559514234390531124832334068685414513180454914228930668787303392678165767876119054325391071374052971736530515773792702232566126650301151290313220169604953797337526814930820577065471090825467661259307460128030554223328237616850509335427511715790612872488813185697955790396595682895609719699869169297236304316811583703383803367614746094, 2),
   (31683108274316065115633822008612374932587472727123865932214916150221114031805277489003850895958252974575753619034070298950576077916068077948358605251331458954064282250333327476474346822642793942511567709360813704929286122655843648243920248497994537886326168631364838229077725582644241397254544016692667928051309336049776968989410294613108141664263458954063559657379975227487797660090368000000000000000000000000000000000000000, 8),
   (505273364376101381600472758424199114577197733430297345923106071884316218391138136269781022311565705246179521821918808101293405480390759001510777343336846134053678588141382571502675831037478247135722875675793743288190793884533470159364834974847672376565137673199157397410249122965239361596842463676591084191135107966809123353224835577174600454536123036461093484360368241677475348278160247798549597285422407821897650137543678283, 8),
   (12673243309726426046253528803444949973034989090849546372885966460088445612722110995601540358383301189830301447613628119580230431166427231179343442100532583581625712900133330990589738729057117577004627083744325481971714449062337459297568099399197815154530467452545935291631090233057696558901817606677067171220523734419910787595764117845243256665705383581625423862951990090995119064036147200000000000000000000000000000000000000000, 8),
   (202614619114816654021789576128103844945456291105549235715165534825610803574846392644182189946937847803717988250589442048618655597636694359605821714678075299755525113844694411172573008246028777101424873145993291058564508347697921533905298824913916623002620206952862116361509898309060984000333827934313024760645178294690458464643159066447014782268985337620898487228507664912667614659542259367218388511454385536580957705155014991760, 8),
   (5094643810510023270593918578984869889160065614521517641900158516955555136314288620231819224070087078311781181940678504071252633328903746934096063724414098599813536585853599058217074969080961265955860087665218843752629208523059658637622375958477521692121247915923465987235698273689194016678530677884181002830650541236804136613497175373787789179613564199813420392906700016580037863742531174400000000000000000000000000000000000000000, 8),
   (8165369150327111157078119917962584951301888531553634199321171053472115384066309623560542254861595266489834926498754514559331820584758782692114615101526434580147662087941184770254692232314959717187422387783529629660149686412226237816383542644030839907005594340200343289368848901855157655213453265752814897854000685276025476125119310377814695725440109106122209035308858895980504870779553052498901057011611737124212595517747104167938, 9),
   (20582360994460494013199431059098874352206665082666931273276640408500442750709726025736549665243151796379595975040341156447860638648771137613748097446632958343246687806848540195196982875087083514461674754167484128760622002433161020895994398872249187636169841580330802588432221025704343827381263938652091251435828186596688711918528588510102668285638799367246218387343068066983352969519825944576000000000000000000000000000000000, 16),
   (330697450588248001861663856677484690527726485527922185072507427665620673054685539754201961321894608292838314523199557839652938733682730699030641911611820600495980314561617983195315035408755868546090606705232950001236062299695162631563533477083249016233726570778113903219438380525133885036144857262989003363087027753679031783067332070301495176880324418797949465930008785287210447266571898626205492808970275353530610118468757718, 16),
   (8356438563750960569358969009994142986995906023562774096950316005851179756788148766449039164088719629330115965866378509517831419291401081871181727563332981087358155249580507319249975047285355906871439950191998556276812532987863374483773725942133170180284955681614305850903481736435963593916793159092749048082946243758255617038922606935101683323969352543101964665261285635195241305625049333497856000000000000000000000000000000000, 16),
   (134593862389416936757697189667736269044784679609864329324510523059907613933257014679960198258011105575185194010942220040738746064608871394505471258026010984401863988026578519160493219411363638498258876929029810650503077355975931191046358125172882349607126714306692358610311420873729491209710956906036524368776420295747365935708404152612708536990292038450765432633513575611894652037494762740865635573250902068886958318216784391552, 16),
   (3409426934010391912298459356077610338694329657613611831555728930387281340769564696711207978948197608766687314073482431883275219070891641403442144845839856283642127341828846986253989819292425210003547499678335410960939513459048256789379680184390333433556261918098636787168620548465873146318051608909841611617842067453368291751880423629521486796179495837585601583426604539159658452695020128067125248000000000000000000000000000000000, 16),
   (5504888971727152713389815057410413403931693396043451069372480393150221409870211900410372108752654218025074435047536799666214714042502840035273774453263849262036237110287061433664172673924772814578788066397319255605575863859415585713796047319570888098931482615143717467161737113735536190477178137456893846682955590096067266770473729841859779162902944372636306194710705242526491268333535796101404494945961894617476595215066481614485, 17),
   (13978650429442606840423683359918202388646751596215808509378488614587853497155215256515952713687610195943417987701277970721428398190655729754112793867943410762932722101498272643641358259098943361014544748681175184939852005182097852836456688756000367077580673864204410827391344248710079899904011596530350607633152476558809996182709736881038095864335932934100966492049078610554599656049582525075213516800000000000000000000000000, 24),
   (226250936737985976520321398859567990901592598577385838951208944158474099945665709106866293669734088360830559280453762466281424747146866725449752130029144204669689345232798224923597496898308162679188189528929821405389168004621980572837017544834363500866083935482406787900347395374530537428612021449478337098669474752948364664266470296500436923595311013715352184602609985467838791128508321219767724742279033868778288063339232394, 24),
   (5759203976930354018254557544286299384122461657640913105863937309210195640827948685684572518039295400728688210932926523937228500054550160658694471073592685234328281505817288329180239602748764664737992436456644176195219026135024315368620155767472151235963237632052217260885233830468552918760452777770504450344858820342229718427276411594987695496106404368849598194724220387548495058292428000330987968921600000000000000000000000000, 24),
   (93441636872788208302892737729001580242357743212460351486849293937449803277559937861135779285600178493023020982827403898574228420571655957610747629702036556528581699581145666893445766219001271186504722275448016240425726385908877976581688246016592125857692665354234003402843474289681111958016764858634553221750493072967674606342052232454680449444863448664440452240877923998217420736073936663764070318561240987805432970159102978868, 24),
   (2384310446449166563557386823334527945026699126263338025827670046013020995302770755873413022468268295901676919326231580910012599022583766512699511024467371687011908543408357368280619195537988571201528868693050688944820676819900066562608744487733470611688780379669617946006486805813980908366827449996988842442771551621683103428892434400324905935388051408703733652615827240445076954133065192137029019133542400000000000000000000000000, 24),
   (3877827930220710644570048615753565580057846343317104586704245698404166836018737421237134840352407407460455370787337261790830479453723722240846026632634517095936140532617545176077999298088552754239945974431092673977667645015218436028140062209688573223094245612200711141218004183021766146257695741633333958702645462528158496163195167646869238651961833119574278767996433845926022960547068371546208918220291500993925468261602773623054, 25),
   (9918731457228532904398729185071636251311068365255486187443107391414167340459526344433398173467996110950975984397123376585652411933948468692829965861784266217969539540578766652047375853438032456198360093763090866010454015570784276900452377068971237744625326379425610655386985112186160578806002191987473584561929654746201710264192527105351608691214293860207531994881841320251520129193551199290040719595536384000000000000000000000000, 26),
   (161705424690203633878571027276923684688412192516323261265567045623453757061981350465588522842695388891100988961831963816677630993220279217443279310580859362900537060210151633842452570730292649851805747133776564504868740797134608782373440594144013503403030042028769654588790774432007648298945912426110026077900315787424209290005238490874447251786808441086247424625451291375115157454812751093476911889786155591446692026508835660, 32),
   (4146029749121526754038668799359943953048026576676793226351218889611121948312082011973160436509622374377507961477997571412802708188390459913602925730225823279111267527961924460555803106737097566690914519192971981992369778508587827744389093614829977377253386426599905253951759776893815121940908916250763958346886595683912314890432476330036972432927574833566748373860609671865135414002904401303237020790934208512000000000000000000, 32),
   (67754572945195322595121260429031023884444708664339446470272592116227124208970185845081591071089367945371314375007592839187927386159296992108734031133380073055325028228053534579987627135992620287906608049052380527540002393999401079814471608946341657925869587610054485272703334487011204637258337306540100926640232314930743692512194927676393398498672736815137670918064091086173250973566542708166826081820399192816163959107202141574, 32),
   (1741332494631041236696240895731176460280171162204253155067511933636671218291074445028727383334041397238553343820758979993377137439123993163713228806694845777226732361744008273433437304829580978010184098061048232436795306973606887652643419318228590498446422299171960206659739106295402351215181744825320862505692370187243172253981640058615528421829581430098034317021456062183356873881219848547359548732192367575040000000000000000000, 32),
   (2852467520992723081254605064062206105535122234768690696398476128093161929197644824077934984092862390500132335187819658529811742957306403367777702710715301075629183688401053805817479102425289314120868198865105220209434100787374785460189254736640983798679109638383293829980810381903171715228576000605338249011553780458584309454763406455176162076794122219917295945650498234727893865987151448013823378044638806017560502678413210160269, 33),
   (7348423127342994018858136579985564662382322304501948314384900359946752541188334158021229557669654696346695110923602895572051519993103251150869825564252249179896810566559714913889105426380831727202976893817623540883276195428621065894155229522924651903443902102505672072104099028566597922128066963162854039774021802190166186911802521047357529940120833635013704817830544582413766007778747760869857295649851791166668800000000000000000, 34),
   (120659376137992186337069794209831318264135670530715616457655540218340749605060376058496649827128079118155597778444771555811036727094060862456996824663257235499114470019364575986079366032589737987312724811993950814859062463305953424966005475359913614684126337703613329008188279154504163554168764825605807933188724913398116289936492093053951655848391369902501618501016075328989910531256506250984728891288221494542809263296878789, 40),
   (3115731405993429463995849909913879416850104657108826085299197752617423077463853683001001332451933591250998727031607627722549844477075778487968806039242953652276247680221319123488980700785472652334062202978672381334509106861735331939121817317720052407060214491462404958572137988112237518982300392381050112864185244128630463250604268924079592694611233461245810842760150902943436787298189050608819493355537159454667571200000000000, 40),
   (51280234858646679193254662539178310262257659975554136994503604592794818582150659824861076176529433625216129055839027911219690609014975866544223650481884325087123649758229944794083730563850638644607908045097429096315101546905030205610552327027963286240753693524035664828480018640664269510521725050882468371605208088194199423223009139547929453735566332208563187862931832014820711975784015156668509778797494135180693936901173485656, 40),
   (1327301578953200951662232061623312631578144583928359912337458242615022230999601668958426567624523709872925457715464849409806233747234281635874711372717498255869681511774281946606305778534611349894310498468914434448500879523099251406065894177348742325407651373362984512351730782935813183086459967154327348080142913998796577344757418561657906487904385454490715419015824284653904071389028535559357104169458829927688385331200000000000, 40),
   (2189666028464213201551974090422913848198402080956161649665303916112338753457833174521567952737806815796728710684326491809080789004939469501438349875576460681220179844676418642707375295076422270124757673525660222412654836052844789779570584364094032322480182713476322888176096795956364308099277659672681399467542385365892315371622490258696587674508682385305648121747189227032844401365977447189745367554652999572215631105680107837521, 41),
   (5680850757919700073114353223747778063154458819213380424804321278392295148678295143142065709432961478256120959022189555473970680438162725401543764675230892535122236870393926731474988732128136577547648933446953779439583764358864796017962027079052617152744747877993573712865407750965280423610048659420521049783011671914849351035561751443895839768230769745220261993387727938318709425545042132194048405845283792090506289217536000000000, 42),
   (93936672621114746346579688479143004087711449273019334770641538001219332523341043186975265172451912397679661688357606498609565848311903241611705209662230163224345715336618359772146400158778515388352104194250823541502892466667041481543578069219633986634399838408134251902754552546528028817459011599958032037157568332196780329442604832098083611236422474329612304422954417839709024818600432484440076268094613681648050574433676626, 48),
   (2442765825905471031439171886211544567156417292261753582665858149708686913931666911551088255056173435650132012379541508853807392588409971922663818810349283790102561854269388494534245154815098728345489041382190125159021018674311862287723671643992625375680241587537236696532125332915070582152320923550824051406695018923385220945291553120875211100339230990444712657156723013477045052984368116843440814513472030598917704363540480000, 48),
   (40486705899700455675375845734510634761803634636671333286146502878525532317559989613586339289326774243399934187682128400900722880622430297134644945364421200349693003310082513061795098468433540132379756907722104946387746653133494878545282147833662248239426330353905862570087212147553580420324833999581911808014911951176812321989762682634274036442898086436062903206293354088914589696816786400793672871548778496790309797580914625904, 48),
   (1055274836791163485581722254843387253011572270257077547711650720674152746818480105790070126184266924200857029347961931824844793598193107870590769726070890597324306721044375829638793906880122650645251265877106134068697080067302724508296626150204814162293864365816086252901878143819310491489802638973955990207692248174902415448365950948218091195346547787872115867891704341822083462889247026476366431869819917218732448285049487360000, 48),
   (1753074365457029730743774120304310485186097379767868731290143574640155549350347550268288491227849324739217150326636159759001300730951231865930126134279437975141707043326572815575727763683172287732043474104367144178589430080680328241010717001197575348767160104324123849284776285989070032200065312181896781287045687485955973542156724158064065777977487142681523708832502232050001733872166851154366035338062108911020414235253603301686, 49),
   (4579892791673649527424674586020300678070223652915716557068564127725822921192203659128904347639718451031719507370154784119826404216158088158363940611147665192387491169332591100632365555859732303800390493906640621858145327492093824366007357491888893464355371347641814337594151144175807533065743453146968997501384357079076483045908227115266515787804017399364982866649996843507842228939332094907430314315018440729298825557114775142400, 50),
   (76258734897380793287354174233237506105595236019902289811121245496846766396740118436670549368411445626155946039208672949516556581796378586167960486841155551918664256384705917477544157720217994516343891123539970771768640208509594278483966189552094527671371464538099387443887768440524546400702841079912509985986487405639084849083817500875786861342020690706646281334213847094175075423439258025214922537205701737629388019233531743, 56),
   (1996833257169711193957158119504851095638617512671252418881893959688458793639800795380202295570917244649829705213387485876244312238244926437046678106460382023880946149829009719875711382354843284456970255343295311130151362786552907423579207866463557550458941907571831051191049898860652084416664145572078482910603579686477346608015987022256200883482551586123132529859398623769419211817548793379639617041348040157974287942902041962, 56),
   (33325067150155406666573774139924790168145118140697300647459984282122036915375431756825030073995801738630148419134190078938735226245017442155398732749584976188456280040116485937686796923735263603642280420986967227262895771118692699697493224834265308592389330003149432312978954808509226777107141551921766863876094996264280079049628247882718858406463041838804424943051451180154507960042955757018921148758891659344042564405053371963, 56),
   (874612966640333502953235256343124779889714470550008559470269554343544951614232748376528605460061753156625410883463718813795008760351277779426445010629647326459854413625106257305561585471421358592152971840363346275006296900510173451527693045511038207101016555516462000421679855700965612974498895760570375514844367902677077814311002315748215986965357594721932048078416597211005614776086371500282152264110441589192738118991094379393, 56),
   (1462970447891822352662588684742698288381570686376611498423493309985157420584981454124618820248415696325863515599990944465410476432156265710622004367706780454673230693761113732664450384951978072199896110481327861276841124352110609516719952570224247047205891587138260078539776116093555055515003514129365565324160570336001895470278680082051357884043727536723514254999958706808782899445885757733130638430515343845203468577381843029193, 57),
   (3848297053217467412994235127909749031514743670420037661669186039111597787102624092856725864024271713889151807887240362780698038545545622229476358046770448236423359419950467532144470976074253977805473076097598723610027706362244763186721849400248568111244472844272432801855391365084248697087795141346509652265315218771779142382968410189292150342647573416776501011545033027728424705014780034601241469962085942992448047723560815269333, 58),
   (64516996752029365752420160997152994517627267269208567080476054970345442247797682126895689972955132207970581037959600650924602010658091317838430392615869018051089473594865115610502261976382232984015418472226558682308693583928077879687349908346889294781779818992797269463604126719725777948211654973105021430795481151817683590239289791618464882686328384369506978645498178970267325865563561916031061154785726663573472964262539277, 64),
   (1700947297522120596543451926536109071929516702325656646457780229287326221899359849042672831898728097539005099086160240349068533037131165025428550256672538120499124863618106649207856171424820258190019099635138635835632246212112185328531057434909867105170056997168415298420082983367237924112805452475157266301269326697126380933272037303667130451450227450215213447102904598255963719616532775293748729723241986802662037093813880349, 64),
   (28581029561149009028322131321738776571308879400259395216650892351863030915774373182214790658019123568130967399816103088359598690721534453802424663928829974996632636802525246215452502055537329211918830383196365496262751257680138500701496009397671957588328459813809190372376628136838519631057763153085524493842398150255233830476005377686979943030043474275691591539955693283828425358444657928801760091570076911963048523168304899971, 64),
   (755220600099821544865292655382032427936705415832591551027254421803572842523315772974946737363035275307318263994255146714986428668486237271290276313962606925501611439446439352248288140112620194636368480238001554311020717318177810285867789501099980994695505306742776392498516844615053638306085620898969826237763581053524113134372784562828205920443900987895554770513689641625647891509740552230424435997119442140381944469653362874976, 64),
   (1271855815471130901760334843817375557423245133311543087140964709657904875751959606608558184281850998781828049291816587432002141737108283194207897544832933887350152337712373456587636341471411149930387952052238264583692430966766163281216572418196402112680616461714508971570759952089314123582070460312305839975986717686357905456182239307070607464836934605268275823528028351130364928450787277831678324074868422582355659280989568048719, 65),
   (3368283876445204090099205243003864628597706154613358317581554721243934877653988347468262448639137327870639457414377954348839471861448618229954632360273226887737187019931119511027365104902286068078203421861486932227152399239073033874970341174905915236341953668072782710543385126983139226845141869209405425020425571498717544579302619150213798405179798406014174276491055801650389596133442862947692984547152711946103472334653998422393, 66),
   (56851954951559551308686967518636687416819057459025975995201122521708347946112594415402550837398739645547713803344201458210495735648740258781093020254032144764551809495743093509467344463772078401888341456735050426891051664214447498670380787093379174436823555838638551029212969858392341324118549575960071046926606280580198373891346097026056153678210976855491929311702867295527312301750191319076021086146618489431297969860233691, 72),
   (1508991176647451432364443948865731353611772357266784526276536515117282825188986779665781576990333522886046476921641323548280083393928980967019675297402405645706259784929141540940259566996224158499035132993946145637764274859104719175986712846357850025881195243296606654323436536888446373626623557405813630409150656031425459971527573379295781685520549685894350075867992999139374539067782402600566457077124414951854355605924991293, 72),
   (25526527773250238537600448415867872650151756799102663221845304012247048227804554892515745325992034100850923497701546454736512585306284376192710766094060432999283762463588648985750837664233663202447865314074037641674082197232286926903000973404927249322133776571548709412116623466418161254529228759606071900070046219980509069877214397564699213001516728608115876260954587415691763223485835902265133467679831701754652788467244927608, 72),
   (679046029491353144563999776989579109125297560770053036824441431802777271335044050849601709645650085298720914614738595596726037527268041435158853883831082540567816903218113693423116805148300871324565809847275765536993923686597123629194020780861032511646537859483472994445546441599800868131980600832616133684117795214141456987187408020683101758484247358652457534140596849612718542580502081170254905684705986728334460022666246081954, 72),
   (1151246402573585758045780223555641056521844231639530111305223210952341875073985425652460114202240737948376649746339745108616717597313425366291255550842125528267697687107848069257362778656938210430398725664739097639501107095176140403325343900562218944428233323376846794486459718335459072579268217058233842693159084521120959051462369330167934506368404460226026019369051892447698521379211199192157519392360409749134840759872746235130, 73),
   (3069288053300916213429278991992897573246344974680639726446475271748553266434399109840199727598338385550218534058618452097201689623251547286918019554916493083366532402545873894272487959270319938387037460509686460227212535063418998803956973929491866952642351124865297934893869916031099923956552315763424924252212434367919385582087084253487619948348798061109108054315497760249487812463869406889552173694871060012071759302451432290434, 74),
   (52151462036583434839473844127070539860439543693270714042126611456141086940851539782056443173361505429061462233509190453420337307158298169092993876453148286430526705225985517537358533873159300932497062272612681123069400151411479160270638078695468518182598969548971159790236625240596295987840850232737993074000106528806779445031245330656607433138488722048238978677418050727880743018478267323404735628473926561635808286422235404, 80),
   (1393456776198615960896892662364775498253840618505010435806699773373843182961217195867450676329645627039799214462612777252129567088956202468260780877932087859848405710755826747999709533508725252027715007071397652943154490918792225456996466163989307596499627410688845262441816941878119365476274751356594915610504445203035401054267536251083379456550354319743535056659235983153267466858596710727856686857471461245480578723312950259, 80),
   (23728915226645462851960599077817095636499992380438174889167608212544194558087450600835681643879484970222965316246681656306253474757025666937312213786182470325889650877823410479498132912287481924286163334038769910996577068892223017923140325806438175773082531144781877704557664484471314674467586855895786848670048470607084647489216625448756382078012368531948735298225213081185738073407611632149154710955636585544292770322117109025, 80),
   (635416289946568878168983054038337627203751322038284758727855096658472491430315041315557508406318405930148441794951426426971082592564028325526916080337032064090873004104656997087867547279978714924638043224557329742078447858969254808390388570779124264003830099274113439673468525496422430657181286618607281518390027012584142880745996530494021032186961569803051985836611608317889964887520100091902649207006986327939143897830705318494, 80),
   (1084411425857697652334599377856241270588049651786024592434959695313269691304596492458190651125292463139189514952473351693195783796396072979035168170028538893893157045116529858913064674091537923939877664365571784932543572048374591919087512889354224632829871673316531811098285266940339080623168719314437458984221215106743768390257199783008166660965165241910057203128892237810188229954727851589216370290672591959374179603720751882460, 81),
   (2910206607955285462013942387495586332593181054935344194973576342695804010750842889225253388500938299160079863420877533035527558273943249730913275647943606853536198358799329046662433366542302514354842237968472570218719291194079187022427979654168389129137541854675439553704485846773614732409890292713221349354226323717635374393816664109662616327416283989697978095131681166095936039184842058420914133368091997381961279052064630358706, 82),
   (49774484446868322242158111443601474319991479016978528792764650014879078830880979003830950886650924058088798736318526842717686476254579749737714219004309935229695908370848720524109668540801590708840384794379744928403749957020393769086116841621358910646891109805228810129411293752561563800603444216532679367375753773399538969112805470040074849738301084603671625623616153715487639754922008387945031396341871970935274843810782511, 88),
   (1338695039659431312526413498247969712992863285270258329687845117640069844945387729043616558710431617613636737173603665196342676806013894876220106798054059152626651245047691361464719348609459156603227429465497382300610873949276426030316870640917458999403269253150702194704063489515862776908549534648081820702944108910112272221155665490444803510611490635261069923760573336404130578025027346873620501349322318795702188363949729965, 88),
   (22946037330006296553634889375500279661516071826827101773464503656859255341036131320766068358746075990778936217442840874492853465553361264629086254960986880140889813758961260161614557197309533316775417390209062411994128730186401527548699863987446457808216801620210481469658606419930880912078187783821565188360222489537187464761003321688474505729356800002292619412487046862839801927019045866842659473713602978601161702996770737757, 88),
   (618477108322657266387203036190562007402702837794859348315784444349712268364769130818150850124219407337500172574204893320710316684378419432813689340700975328513512875212033408996700339057570130350691072413059790622882223764565708826006394236103866057724310394955624413953277332156328602931749885007413801164760178316471869766173917456585499221902508673490614304777384881418708327047562634255612671623386911283614411024144775243832, 88),
   (1062401528379291530433295378085662948328194125582094812111406519312583522289972880151468965009943318373064746867603532489019115455120626552326693604693692550523198377039906345482753998235431392566701825166679589675328160207630390725504803702618770996520437915015745292045193477242799786229220094390938468221078301265571779618434453794176369615269219840106148278798150269749482829220981823634815133632939817909233786848750485158180, 89),
   (2869733782617129716036622087924207714348541167368147376185239821782664925212528766996219944576378050046000800744310705008095869415515866168255518540852525524302699740983835017744689573227125404827206575996597428490173518267584888952669669255521938507840800232594097280743206821205364717603319466434400037404487227388429475715046976998556716389627640244996450374167065849782806637500690622946042796332515268355970867152031757131382, 90),
   (49401671069637056165148235080983327097261026839567408763180403148035133786483738927043306872962364304347510729343564260739388868663109134683191252618256703599328724532355645064948060917947559754351634870250600919902759449654813168735973372171772851338200363048232156080101496691790190059658734389178638772280141008849087752257202101429201187110018722564935894964113987543350951558775654799018903713931701532779371088466897559, 96),
   (1337295942699582447673065892972680794886420183993556677302321756950721855149038405420238494172592171321436373146848788533772675147630393634407071640037276894325058079298467118269025341123840438649478264414414401676420859512694558251944065873073223344653812908388849332826334378681699958403146871358430417430491047963008135683211891281327429837566480354168345874361852685998787893075321830292855943090952115053882424092846798823, 96),
   (23070580389520505229124225782819213754420899534077979892405248270132407478287906078929224309673424130130287510603444509765294601665671965897050314972725880580886514356610086245330744448681510405282213484407030629594588662988797749799699564804217921574939569543524416889407398955066018757860628959746424306654825851132523980304113381367436954380378743437825062948241232182744894377948230791141828034406104615807966298314041160452, 96),
   (625854501183404585510994837911214612006844646108984524977486582252937828209749973736671615272773136178432222632725233033805611969091024220902509527537445586544127181111682611349903859645957325287955827745945939984564962251941053261909822828598268525297984441125981487762724489223035580532672735795745435357469810446687807499743165119661237163981112805750785869201347057047432733959250616577056581366565589845216974475452301849268, 96),
   (1082010220268511695245926189214221125082340188148257256953806143869209910731702795101780620123683591703110484247301547507992316818120015200571659772220843799243577523325013044906011914643162838007735812418689736527986208294174614465605909589317820521864665811591295152113207010992596279743663498212107299982111332418115374676262917586132793160439763067233995452272513789370735546325772024104551734813646306481393619390928530425221, 97),
   (2941516155562001551901675738182708676432169836712227267394186936588807792585824876562356591782033740038631446373808595258886376254727813838241794779425994256757397751224908273344548140335999428853392390405945917927455322584122950330976167294411862068900526873292112992484805099348267228503561858240003546180108109099432695248792876062407814670711230187028693585246331168122933849608477897912165932422858272272519780034625818691563, 98),
   (50962681374646900846083123511989814991378222861782916802524269376239786795463201649293867207825497169216503808047902887626438122133452715946925175271601742944372501348608114415073161179692969670164356764920286590468150410655624341330038341656869346579825759725950001664532050217751284775926550765790253829157443756893234147251983418306854557856712840466721185802035399479361644231943862335324386709722741035273639473312733783, 104),
   (1388395625425264732497590948422238495275984162928171270210056234069917278100509341737432311321119925298234042688437656962194369592231528131650127135889069289189491738578156705018626722238591730418801208271606473261758912259706032556220750962962398896521048684193877332452828006892382131853681197089281673797011027494932232157430237501456488524575700648277543372236268311354024777015201567814542320103589104512629336176343386422, 104),
   (24105348290207984100197317421171182490921899413623319647593979414961419154254094380115999189301460161039406301206658065847305231769123134642895607903467624412688193137891638118329605237994774653987740749807295557291435144240110313449108135603699200932257584350374350787323659752996357699013258512218790061191470897010499751650188156859142205866225173540759120884362743953738057721709446884608434913698856509684431470876923079372, 104),
   (658099526451575483203858109552141046760816493227953182079566654949140789819641427983542915566210844591362936234319449400080131186717744334402160262411418843075819084086046278178829066341092480218511772720741468326073724411100659431648635956444177076950977076307897855582640475266989130498644887420319513379783227032597878042621932575690375560648882107283555558439991179581807744305205543144093059729101235538986305347586765164226, 104),
   (1145004043784879244759372577505631168318790222147107683260714022210667409827069483055509961491819357649371799307316258127746998509033348895537541375414712159602689174049852810620656248804751796064417685615846538971343169351405239888832636441175712044282235256642781662397873838267326990703129779330392527906594867607998738203383937450809254778645695743186058242007230337802557741781198727018900658400695684210010494866653846270179, 105),
   (3132553745909499300050364601468191382581486507765057146698737277557910159541493197201664278095163620254887576475360579144381424448776463031754282849078353693040898840249580284131226355783600205840116038150729389232110928196839138894647507152674282886286650883225593792573368662270868261173549664120720883687768160675165899482880399060286187668688678830669724458174358014809404862892778385365882964310521881165574813454513002181716, 106),
   (54616692888538739975022071947018606728806293596417036491536058859448835448751214341747825163159783359875034826958985512693531828880890742317140723607281770013048273602177979066605303067986660672272723603875879908933069178062029942697316758244081464512262621741860685296378582085351497456539290474059723581144575184901539812301413816403601452941399686949974978143744887113182004282963179278801561405713184136817500605139388467, 112),
   (1497360690544740665424074279501795480873950550711697316121996418672681056260833748262395524929488210481836261555222356831014320886515149329178547201859453065273549645639299375814726198064560898391575466236048648052949023678089108391641508418978307219645019122181833832850070220565475028840956739449704582402753180802729299952816830750816797705633188481060128291007343131078895524462748068204892056940429459197144760831257215042, 112),
   (26161395893610056448035572462621912623098214632683760479445772193675992179951831669697208253153536229380141682113354060580201746033946665569910406607887967836250123055443251972903940169565610462018634606256546476378940136291712342552014727198915021501373795814351268256965340818883367281682320137074607595368251513567837570092377218057325095958930450049038014530853800927214180051539362874545947913336615201535582789861767075734, 112),
   (718733131461475519403555654160861830819496264341614711738558280962886907005200199165949851966154341031281405546506731278886874025527271678005702656892537471331303829906863700391068575070989231227956223793303351065415531365482772027987924041109587465429609178647280239768033705871428013843659234935858199553321526785310063977352078760392062898703930470908861579683524702917869851742119072738348187331406140414629485199003463220572, 112),
   (1258363142482643715150511035452113997171024123832088879061341642515815223855683103312435716976685092633184814909652330313907703984232834613912690557839411252923630918966820419896679522156105863223096324560939885513827020555631363676751908378267812534216079578670296003160032893388289966248919598593288625337212897802612987121443344188557337115624554647358728498934067824599002060479043354265660094631491191193861532192350996342850, 113),
   (3464293693644312003525138253055354024549971994126582910579850914241114891765064959979878286476863923770776374734162444764234732803041449487987486806222030611816884460151083035884950531842168094518748998683722152135302861181626961174901793878148211583370716241079890755681922462300283026726437512390836521847009759105194508370837019625089743171752944869780712814074589068064132685397013930598838262937377596798514118659196692723162, 114),
   (60778939781911691441769683012337106063360465181089892858662801333513875312229493889990645129973889974182826560136207554161742102438445911851982953943643563516211373386097426281009620920139913193675552476293396470317845092836994865587117174670335345402636643649775296952629588750654405369822816612055840603787382963866207277965713524307319382684665989467426586498515475928131799521137794011031382570701024534663512004890553123, 120),
   (1676718147723847009706166914478791347882186445157266128720647842492699607614291440630261090654802139105055765371334623265889610676672061552185943614211462816119372078713124189368316057411609357747074515362921521633486584811907449208652468237023734406351426660682667125750050471753336984935595755997164876573952723406914142051485117498543435695128425316973865002012101108943040219732154742409837719261690756850480833431051199278, 120),
   (29477785794227170349258296260983496440729825612828598036451458646754229526431304536645462888037336637478670881666060663768444919682646267248211732662667128305362516092257251746289666146267857898932642951002297288104154870025942509809751829715112642520278772170141019022025350544067386604364066056847082692836880737475110529813371059289049900602063004891701894451780005825143922767751830095350220546789996899311803322371918264829, 120),
   (814885019793789646717197120436692595070742612346431338558234851451452009300545640146306890058233839605057101970468626907222350788862621914362368596506770928634014830254578356033001603902042147865078214466379859513874480218587020315405099563193534921486793357091776223114524529272121774678699537414622130014941023575760273037021767104292109747832414704049298390977881138946317546789827204811181131561181707829333685047490882849112, 120),
   (1435568168178863196008879027909896276663542507344752724375186036096930977937204530934634042647418294245211271937137154325523267588544873214987911380671889148471154533692928160044306741323244679678019711713811877930672342170263400227734914107125985690737576204685867626372634571496081727632530016968452927141156091915037882801911170587376730159320468338225882259801686283684509038789514125643555740628672848996484821799512419497194, 121),
   (3976638896593693475979921947731059863945223948250584932164186075083085805386662723913977623484181137272678657615886899307245071849649594942088358750953042131733992371642342377441047827041965681581581686595933714427707463466704659139176885868384450416855551582607867968798879702847954260432053742583355994472912195049710132420666223468945495569422183755760576147972059958058029628334356759478563922018566734207148383031755508303671, 122),
   (70199283423946410284834184464793927928847228609158408221946597165139924821129301562703604685458754588590831197726006846518087785079844300212908866514855379360239456697584187026166599650706664836255163902805400830809877532125880271136237299838460700277067476409138926929621830546158396481230717829757348137202532894645352469013456241722722104790770901739245642504302459272172491996807240743969875716742102315928107785996157313, 128),
   (1948553059330909803230161754388219333333159734642786616760451176790712044639464734717849035507248757263612542231784580660550085206328301521623295787966990644549656262104747764946113435250563183974975026432007520069576657098685282978196674075508380704259220275477855304711451054395497587611706333865844437291726975574357964886126449499783292829016870040322682312506309379448434517883834812144496321789097699761502707685560199068, 128),
   (34467848161157687449853584572213818613063989247096778436975779208083703087174487067287469900560248502998098118083469361640381102474203551404538253458793991265877573238513835829847800428496972434601285476277451807927649868273807213127892514220684203836040130916887213122444318798163772672284282454410857935366443651270868062285607014685856553452268512753969610469612507502636693570432355205289208976920372237120700922924113240885, 128),
   (958688105190807623189239583159003911999914589444251015446141978981030325962616649481181725469566388573697370778038013684990641921513524348638661527679759397118430880955535900353487810143277086515687713004547699874231715292553159225272763645150123306495536375535104809918033918762584813104959516261995463147529671982584118723974213153893380071876300059838759697753104214688629782798846727575092190320236068282659332181295617941849, 128),
   (1699264914345073991277781719410141257624054669881871176942905914958526562197702212417272266097620251197806237221515039528870788351978235084243735895518543769407764360658732106411496561124900741025843373980478374130833138505898695607205100951079731249116778454202539606936504916749473992743615125002455296213565672007653795470680425824012728085196837678770701796151896619879988993022315111620758002562174351290050555500158782775663, 129),
   (4735919239642589658554843540805479325279578071854600016303941376166289810255326248437037723819657959554065011643507787603853771092276810282274987946738011421765048551920347347746229782107788807387497302242465637378704673545212606572847452407041609134087949695143417760995087558687168976738500010334257587948796579593965546496432612980233297555068922295603472906900334820561831127026302834220955420181966177316337100975600352632734, 130),
   (84113613260081162568250195110801992252390706159152623258673842790447064828786259514654977171832202434291408742464994456679104023422922636670064926828167916585684335852607239267369079775682586680779247012033679519476240356041985432556652497078446696831280533483025710543356993379098962640808948687621537162571500764378862875798681078288630040217243465099149738909518882684059455154604598025227521126827630388857502497257859747, 136),
   (2349015942862724470643202396239517745338670723639881608086754922578479745886641819224770711014550347938816245775179862651511470461769297900008394021582053665195464081752492284482129971925463248464198661912262956139837518078425452860132336393892638130507623048791135209453563429108835812462296005125791763622603103478606911062230576038195715587314185458619322561822566070998668239005046205773593888410255223948903202083897774905, 136),
   (41804465790260337796420346970068590149438180961098853759560899866852191219906770978783523654400604609842830145005102244969514699641192550425022268633599454543085114918745797915882432648514245580347285764980738721179691456952866759980656291047988008325146425141063778140048425709412184432482047497747903969798035879896294849271944495909449129987970002154277420238030884693977549211838485218538078000033332303262178741137156294455, 136),
   (1169809939545636786380314793327279837178658020372661040827203951444082913451547625973935814085246073273530490396039571600452712289961110354204180222747862725267341112712741157672100726018880697735170933632306952157639084003055875524345903524158533788992796278297985334307874587696200234606223410552644298284056345532346241708990826867021466362482464358392422635787637903357336783024513010475249756428307101526553794637781091903106, 136),
   (2086042842933990856041375313806422648456965229958832802602088903355924341873347871841297830354590170031157224235754602023978783512095508266208611204816612781699947234445415316002533389160860854459329559672538862186866603701948051323034748923294601615424806614539082529188416442899668003180854170137620408092921990406825112978670030345881511586399703107498443269877741146229479705670740412405050092201663281932782719182744099093329, 137),
   (5849049697728183931901573966636399185893290101863305204136019757220414567257738129869679070426230366367652451980197858002263561449805551771020901113739313626336705563563705788360503630094403488675854668161534760788195420015279377621729517620792668944963981391489926671539372938481001173031117052763221491420281727661731208544954134335107331812412321791962113178938189516786683915122565052376248782141535507632768973188905459515532, 138),
   (104510746430992941887672903221701774687693958020937523410364654058131809527854728379249021300764967518560976934211305561401337053955984964137051421361312300363167356445715307331726922796959128808412410939594196995562016845467597371284040921057059540932782811388408034712339663789273366959360793923894782445455391719381938160231368520328663730478625125685672007820874831426096933254104094661493009619303330424832414231055479364, 144),
   (2936222948259548333814590131251472391318431631135379212476281918124648112763384541194578893353967643916561530894059324717136307847802386989052492359097135440421026192908980305756972822307390551315279043417090449915674100847670247566108217845637919810371918658527943189112765215117462588861620760487137188692981427286189066689566975436223880569830985539564980815826971137426915325391527656292876888635050824831650024540830540676, 144),
   (52568905454789449769499470320515992667910060884531574275413420991240300192510928374762257714284778661836171397908286697384872538139860436960936864944740087082673180292194799587858642166870441790631442702615881088767694473270201477755872583291700949089189754128369241460306850886004503580558479343719075570064062034849114894596378365725317856430748438219893019933900040207326757426814359614730983838509575203690704358220906120381, 144),
   (1479856365922812360242553426150742085224489542092231123088046086734822648832745808762067762250399692533947011570605899657436699155292403042482456148984956261972197201226126074101514302442924837862900637882213586757499746827225804773318541794201511584427447003898083367312833668419201144786256863285517143101262639352239289611541755619856835807194816711940750331176793453263165323997329938771609951872065615715151612368578592501105, 144),
   (2654729725466867213359723251186057629729458074668844500908377760057635159721801882925494014571381322422726655594368478217936063176062952066527311679709374397674995604755837379186861429426957310426887856482101994982768570900145174626671565456230897929004082583482646693745495969743227430818203206857813316288235132759880302177117107469128551749752796130104597506661952030470001250054125160543914683844733547786380570090155759079271, 145),
   (7488073211569430542827320336322754951235917082986689482825513198878202603093693792336062876987022444221771878547265852266629697725779559394961228113863878685579317838204197934953662370361199679586277227684000748992948718945762572152991821478659648617202881839724301838602938362201157792618459728224716744092388955122330805434401283436475589184405772562420196675754574873511616539426489490184346356472652015518667158585007678055595, 146),
   (134594797081170167717337968835133121827283524385710416196054752434922102597895355464322546538769033046832241438634481845649358403026391669772934702161265281962122277161120955124773874471946735638643214323642571145626366544637360353572248368630906525000506986982570187372896645665981630742482902587691135135813521230925931320379837348684817573712466763796303093587760967944829063377744145639576474470927990872769494903570896985, 152),
   (3803941191477270715756278730851959515227845878157238257275360705030126922371596446506719941509407401664660114302011052951447886444696016172640303881842850372274293461807732550956460484143489437229828831663472380488417949224447386653719845311159101497539063974579945334010292687998188158650177541938156105998933589202144049160675851985729599305678132461709459911283324035743901202028656661013647949088107223883482916561183900452, 152),
   (68508751714315615368125026137082759010087313912326601843791868989375350222328735931340176188233437820837610892264951259435523427140433359914423763400084028518720239075010566158509902106220888440069396090734068713123820571220416419968274419633131421225258056374128225372804392643984650047923797417134787784129082306541299042073337210480572145019645582772318274636170332683917993259271770130544425505702347354239672905917586565527, 152),
   (1940010007653408065035702152734499352766201397860191511210433959565364730409514187718427170169797774848976658294025637005238422086794968248046554979739853689859889665521943600987794846913179612987212704148370914049093154104468167193397121108691141763744922627035772120345249270879075960911590546388459614059456130493093465071944684512722095645895847555471824554754495258229389613034614897116960454034934684180576287446203789230643, 152),
   (3500797212601527945311188835604928985415461740919889354217764505357080396360998406091483003218728672644801916594739009357155247126876144691627054309744293857306604216733039930699855997627887399287546140236510911240627231189363279060378822843253015624610686680717952316550304464107615617448906048015587655768996105864260381049947531455557236610503889279665463833908304000148209455548787453670820143341389949801647285492388673498450, 153),
   (9932851239185449292982795022000636686162951157044180537397421872974667419696712641118347111269364607226760490465411261466820721084390237429998361496268050892082635087472351237057509616195479618494529045239659079931356949014877016030193260076498645830374003850423153256167676266900868919867343597508913223984415388124638541168356784705137129706986739484015741720343015722134474818737228273238837524658865583004550591724563400860895, 154),
   (179590897006458383594463987266532856951813187309190323871371319124818224333319218232493078065120780906678338321310111180022064177608746222680467886089882274879828796318404948444902612678310623583451116994133009746644176960014336215797433611858879701542528226720830953839030619008720681175128880263199646740949500230836557547862308363670086238118849520046838294679495995207603145069652796373313073353413304424824505745759538950, 160),
   (5105485536941320936593156641308327256687756894720708796222274842708979053724110297534830415192453408114554892099221388393945850637376582039019157809081778158530474434960788535847559942724476523906187929253184767084717471793646786239519335679320303956812237979117500773670185601187046624811814609119581397127989509496064210160535387338440484669391184094784091244256310081177120056830935332444762487674656909664339004146425588042, 160),
   (92489311958326067551148953442264421330183791464233016793756229349281385531659397389733935203537202166939344235474707257711363051468504304680440961336289371563111830103978548449124845529329971145477325251978500019521751134407383151135678310107323046294402036761227941227100768789491150805191373335547818071588992618880827137149088807290094412631207502824121721759940437531915619710871190132256232777007851778784620459066162559492, 160),
   (2634430537061721603282068826915096864450882557675885738850693818837833191721640913527972494239305958587110324323198236411276058928886316332133885429486197529801724808439766884497340930445829886335592971494643339815714215445521741699591977210529276841715114797224630399213815770212516058402896338305704000918042586899969132442836259866635290089405850992908591082036256001887393949324762631541497443640122965386798926139555603429930, 160),
   (4781697428245457692394400892965070582770502018700846968237197057357847631986790845049244450022873352030764096974042365223677469760921672551978797701086160509812881616375690954819754513866359508221177715527288451009274533648861708913714568632548601493420585300555484561441109746416692496628394001447822194301150918396138762990607891336897881133033427896007093014988920620400037539052040529837647234571305936963164877733720604325752, 161),
   (13646350181979717905001116523420201757855571648761088127246593981579975933118099932074897520159604865481231479994166864610409985251631118600453526524738503204372934507717992461696226019709398811218371592342252500245399636007802622003886441950541654040084294649623585467927565689700833182527003032423546724755460600141840106053891826109170802663122308143266501804947806089776700657502270431384956758055836960703618437402898025, 168),
   (248170096525939254235269406344887163245789054770573957651510527276872292100114444858055786956187126970396656632952798755108860680591834805447699600686371730459288555889898360555145259269664058476679123435866270607381348296375922692621786112029272417508528377098829648738793595839026340575013648675141971884229732664759601799212549560385000030804434907802768127477924980198761948276800903498573891474250778128388257154380099364, 168),
   (7096102094629453310600580592178504914084897257355765826168228870421587485221411964678946710482994530050240369596966769597413192330848181672235833792864021666273925944013356080082037530248887381833553228017971300127607810724057363442020949814281660100843833217804264443322334158644433254914041576860244296872839512073756855148023749576768817384823600234498580938572859166683884341901180624320177514189035219565881587449506973398, 168),
   (129296620290014351456575360705686212051056097535469031936436984711250464184159625771047065004173493151576658105768408151411716414588345933638251491957599671569289337618637045849230680079494974466349823310086326986445682462411855722855950564367250929521943284468490246992911463432132723439582110959748967351683690718339752537389738320960585016049110586965242194415998914683554975052213270722756997458084655404890281977432031768907, 168),
   (3704165293396574628133503069117179565152316368339709761259815470360068667285577045562410182872123144686225472929616653729849686396702750832907105239875019309794989342774971873802823590789919213317114785025381018666611277197957943716734935803055026572640480939693826039414258430812394159065129703121047522967622225302501078387268397279073322674877919322408259249935032485008987626472416285895132662406676384613390188648642640114204, 168),
   (6762213241167750581178891364907388890270233901105030370275654300398399276831548427825761499718273691827459218931687746318832768482970492329280553029382462823073832357454717497914764568157587164590095759117514901391109192784140054305366214516407223613997633777702039917729269537500541435890144403194870992493057024569169057705483314186238596339368483698282166767956743237949925195230754058800190967057827477675761747419695261513883, 169),
   (19409826137398051051419556082174020921398137770100079149001433064686759816576423718747029358249925278155821478151191265544412356718722414364433231456945101183325744156140852618726795615739176677781681473532996537813043092517299625075691063608008339240636120123995648446530714177456945393501279644354289020350340460585105650749286401742344210816360297249419278469659570221447095162715461338090495151010984255374164588518887434, 176),
   (355016195161306905511891796657637916739187279808014094439471850770915962033656292460852478735209368820941608993913606681738720345355950847287229034042579298211376198766372668640525139828273326140980027353669532323033232621167352851031726262111379239734875773329357095680786650718778425384232581167730727105885493789881375529537873994777526307816845394159813755317729019992371072749614588087010025770535942577977491739534001229, 176),
   (10209568548271374853046686499223535004655420467072641632374753792025235663519198876060937442439460696309962097507526605676360899634047989955691879746353123222429341426130088477450294493878806932513164455078356178889660666664099602789813499457812386440574599185221711082875155657342353276981673092930356024704279082267765572294124647316473054889405516353194540475040933936481172055588332663835600449431777718326810573560934790388, 176),
   (187093534850008739204766976838575182121551696458823427769601665356272711991736866126869256293455337368636227939792470721276305622002586096520369700940439290157395256749878396373556748689500042876296474415383843534238513591355194952493719740132696859340279532544571189423774564928796230177490570275394093184801655227267484904066459595247756364219477522722221849052443193535979555339046887921854283581072441738594138146734418647935, 176),
   (5390652193487285922408650471590026482458062006614354781893870002189324430338137006560174969608035247651659987483974047797118555006777338696605312506074449061442692272996686716093755492768010060366950832281372062453740831998644590273021527713724940040623388369797063451758082187076762530246323393067227981043859355437380222171297813783097772981606112634486717370821613118462058845350639646505197037299978635276555982840173569325062, 176),
   (9897247993565462303932173074760627134230084742671759329011928097346826464362880218111383657923787346800856458015021701155516567403936804505927557179749238449326209082068567168161152005674552268156083496573805322961217368982689812986917774253019663859100787271607815920517674484733320576389251167568347529476007561522449951425115712588606311667210360952005535814874244938053318477435580371066091601438732167971629907962250746475781, 177),
   (28570456625482615388765847499427140357027728635056080344037511011603419480792126134768927338922586812553797933665062453324728341535919895092008156282194580025646269046882439595296904111670453319944839411091271931004826409592816328447014096882742182215303958359924436294317835591506841410305513983256308299532454583818115177507878413050418196802512396962779602065354549527848911880358390126477544297689886766965746709052919917, 184),
   (525543868458326048338798390269789300827617499835870420370533381969116485257668939581714472235753108115125477920597652331357929729149044319264753286244684561659221702257840916629357171501318725439088033668069062649240642292980829069605333812835344150918251804122375025379488515139339322606269236997879253815176001516842092420673644338454995149528870166551493951769822406210631211151829317703609464036396678119293548112795514637, 184),
   (15199482924756751386823430869695238669938751633849834743027955858173019163781411103697069344306816184278620500709813225168755477697109384188948339142127516573643815132941457864697952987408681166210654566700556667294567649903378286733811499541618840938541705847479800108577088534681639630282533439092356015351265838591237274434191315742822480698936595184198748298768620348815621120350663547286053566371019760025777249216153396068, 184),
   (280114881888287783764579542013797697341120127412518934057494292589539086642337544797053813701656406625361879731678548692613776545636440622168113501568416871364365167303429208563447372410202880659033921945080810392045262342158781894099642922241238432439428211597225888527267378569267858949141503319869642283488808808476835260219052432396512414698887798771946276293315342510266435543925026336023844331399429437583461144120009301981, 184),
   (8116523881820105240563712084417257449747293372475811752776928428264392233459273529374235029859839842404783347379040262240115425090256411156898413101896093850325797280990738499748706895276235742756489538618097260335299125048404005115855340755224461061181270922554213257980165277519995562570872856475318112197575957807720704547858162606667204693232141828362131591542443266267541678267254334250752604442124551853765051081425913500817, 184),
   (1498614618102339643140500549773817680774992681656976297207594465354034113536505864664237903303861775445686056564480235505483704519154957328599407233391030261799353645073346265814443442394585411525831482406182335597442153530549483133433089633990625613550940932045158503620880475345583045377907042761302586216665127125351068642171930513321341418639049723429912578169237082429925430159998890897727567172986947491071517121042049765601, 186),
   (43504568006555764089421496772476499930645492476470350994884336375497142371341706117445899760048741555289638741951655805607018678483774363800975494226163063037746273426110358358653068958680623581174783926993001315397203310259445467420984626448003111287931612144890583062773685887507176215379878510707705081379007133849382976376519751571736217155724280200021025330667495907194023395512483231584033959809787597936180673796442896, 192),
   (804756049920956388366448795228540094576171070049796271600478227895116318969103649324695754074173773414333412375125886466444749326786212085457881684330983250586252907404386944742356128565892365989371506052119914215826436445905072442653569133452965954476855280508250116444412815260578095367936081962819488798349173266313523860846326685653560341809169701481863054476880313264869955995919404412079703571893990802705404693999580724, 192),
   (23405457587527001080108765263592356962687274952341048835247772970017462595781837891185894070906222956745825643169990823416576049024270607724924815893675727914307495103247372796955351099770175486672033752722234707683695380919581661472489729029025673872907207333951133687772243007478860803874374638760745333781905838010968041290567626345594084829779662747611311627899112798070384586785715978592210270377665727689665202502486278244, 192),
   (433763510907395493329515900628183110976556206756840190392657764835467695924346866986011011445979663870325709270192852805413719887137768314061798227854399972065990317090964563216129953297015985268271241762092633762330449244342834046590273762931148649463024996193946812763538507425451593403317548177959704462310204390542989360996170083567269024235142469098724186363038488849764906281800558978110960225250861042658213130065774010304, 192),
   (1263894709726458058325873324233987275985112847426416637103379740380942980172219246124038279828936039664274584731179504464495106647310612817145940058258489307372604735575358131035588959387589476280289822647000674214919550569657409719514445367567386389136989196033361219139701122403858483409216230493080248024222915252592274229690651822662080580808101788371010827906552091095800767686428662843979354600393949295241920935134259025178, 193),
   (2346660594009009618912681022398470630383169078554505430024278507759880234950716550394319571922749981538462087151743333677288224589415326579074328412692303848877007615462118286999263047336856480301347417932921148654207730411894732192053381057457514193594965229409252257050743325171693120311947935642762001141098205752837572442989280152098925421112120757824097848224038224677228142984541024071580294818607158240780933033655837395749, 194),
   (68503093267174026761262334173482110358393116330511781731003181928647109525334283139922874766728333349803682492429929141975634780284235214689309951157610120459595176668184410702128921598807349614391708387467436542448639640875431606797682938922152342291224814425008178077371800834289129800779519692724949442912882006690501263249233328788284767479799116929708786872535123337392401608604433526143681019341352051802112114684276839, 200),
   (1274236702546892223069585795162369552298060809655096448503183229713614967578239086864115527554053239975384913323396630186767505952052522332437360328091920989940215135195930229840599834703913068803631647937576183719234797613658839580284985914199430207122066119569223975578553625568229364329387729054019766619616325723790801836543179122589716503663881571498485131585652755999734881640605776070868100086503686924744046637275119705, 200),
   (37265682737342670558126709790374268034965855283798409261665730969184027581781850028118043873100213342293203275881881453234745320474623956790984613429739905530019776107492319421958133349751198190229089362782285479092059964636234794097939518773650874206426299047204448874090259653853286611624058712842372496944607811639632687207582930860826913509010719609761580058659107095541466475080811838222162474521695516180348990388246600505, 200),
   (694459002888056261572924258363491406002443141262027564434234860193920157330140302340942962516959015786584777761251163451788290743868624671178361378810096939517417248681781975263126909913632622497979248125979020126982964699444067571255317323238689462881526035165227066690311725934685003559516312334440772807690897519465987000916032621811395494496815456466674396714180752019855510494130147958623114547144509373985505417314940239711, 200),
   (2034706277458909812473718354554435034709135698495393145686948910917447905965289011535245195471271648489208898863150727346617094497914468040787759893263798841939079775469080640438914080896415421186508279207912787158426474069138419757747497725041337731670875927977362908525328177100389448994673605721193538333175586515523944721534028025001149477591985290692982271202787247416564069539412326366930071108884575183447054875198264387604, 201),
   (3798690745797667750803895693248297990833363982703290777455264685260743260595867453804958004967765816352618734354043864081281950368961376951345636742091230259160272350289347404689304197227570445063946487249105240094596816905959049614766585758115631361961947412353792054796005140862726969470554228469391027258069209431478948895010698441308333354897580546872708950026568713548609642402891909333668436572880466275700714632712723111219, 202),
   (111501904004748257723559765829583039902060636277547544383644800318276145246897837832131436711825686337208647657700659858594616778485712848635169242150856176538261571695705619096052491633123565081020653700593620736281770778988785402724562875332265307695564000853159487387187984105101341804908113593521405900658022141050712170740064735770062991372040793929975428461912741158427711010759795484907767896766874720052898607160864888, 208),
   (2085481219442919595191338735593315596967516826504106636822940312208148050067131232138921944727303433177587685160370081380623790752559795946288754571408085412278989520308851725174428004277936174340106621499758776811933652481371518238506855581205481617717109129382231838083006822333637106239334271429695673964679995977881942943360873444278275011838771720233117213564586223738186693679187658224183971678511375985359692333359284988, 208),
   (61326047202611541747957871206270671946133349952651149411004640175051879885793810807672290191504127485464756211735362922227039228167142066749343083182970897096043864432638090502828870398217960794561359535326491404954973928443831971498509581432745919232560200469237718062953391257805737992699462476436773245361912177577891693907035604673534645254622436661486485654052007637135241055917887516699272343221781096029094233938475688642, 208),
   (1149100151913048696950427643311916893929101771403762756889440112026689575586989308908545991544744191680850814523363914840723708704660447566405103768845855062165723225690177300571109830357142832061398748446367086023375442517235706549417277425244220371362127130289609742783736759105834045537873183557762316354538677783812950561791841267797329531523163217848447584674087009279740868217232399681525368394859768167933190475680966028420, 208),
   (3385197805584157104487274490586141091426560917386343447487456137662863769695818356583510418571027837197654542887792033306932565394826242084563738191699993519701621316681622595756153645981631435859787046350022325553514560850099524826717728895087574741637323065901922037075027197430876737197010328699309883143977552202299621503668365377979112418055158503714054008103670821569865306286667390921799833345842316500806001713403858013060, 209),
   (6354523840079159294135864867514900423427932795862808045598603819507593352996050878264259333242435379995105004314202449069202109136772275042220223841717578493776449438066680472158237361874999861299535078908409985709266197120313457218277544161600538653632563030501541877594064277855262271824438705074425609440598888144485616606708882210919232309323092594701915143247701161316967001241295170238835287223574517968670543330515742137167, 210),
   (187539958429362303588595006778472216465031474823203426990805070026522652841148336954726477188834942180750061675983678645204064122873373811484831095820179640991469820944161891804890911987382381546632202367791236835664706671095513675400162180787851640686707697850966480853956506737670571240714372209941767526176356392007399031303227441940042827960255781105758592048943363514970537968281373457067710767359664334144652494922573733, 216),
   (3526760731243933408245405001470769735002502701703858465307225119826714310912808237436663929949551635897283277394382359233407170570908612648432224232153256064045929438127007662047821735840624923021241968794167542068642739401773968756144037009688298952766072481928355742064705674209670560862563481316306213239532382920189517216723429627060173931674316390059562904502474144530916685688918819482553584409083857472612151548436236886, 216),
   (104272216886725440795258823768830552354557500001701105406887618934746594979678475346827921316992227852497034291846925326733459652317595839185566089276019880391257220444954011843519347064984604139927504516491927680629576909129105603522490172518045512221809480005137363354799817746144837609837190948727622744554054153956113861404594457718663812345902214294801777179212510114323619110364443642129647186651973369784426787176950996061, 216),
   (1964405727302870908392690585819218742396394004849049165176124391743479871178434188252221808981900261194786785508670974093007794007996097245176748897309363627673582697036743267760636706863228082122831776618351320932234005846788100597172228614396382516690702372434094148330041060534786502400447859093182560774419537286545561089714950302272516879942594229263176537807878098503720593928727782451782346515859708612244968412478983945573, 216),
   (5818389702279279596375442366300744821384308500094921681704329136558859999866058924352998009488166314169334513485058433231727048599321847826554587781601909325832152900828433860868379566226140911007954752020249564579130391529404092676554951626506939581976968984286664875197829830234881938628915254939001349146116221790751153466376370740701440728901343557649939166600058064379257946358335955230834313015180114033971014724473865580230, 217),
   (10981028015623048377915140374729432769995842487106184833334535349846052479887447112329919912208822460078858130993470745179913568504698183600538026335959342678695327276435394866781959191365444979066629631296583884011188092683545482338192757954475778268301026261906586289164929528389456548418503532330890514729005213431789686491506572189703369358879101741581156846346038570635798120061588303905463317023655771142449373425757520, 224),
   (325829823327639657397024772512841709997521276005315614175442431647296159992499299763767888531337313593482732755163272260976714721562023478287056915769706922246600562446392296208629255708663891016445466113133975616431301925646629189887077291084388616590710263120053233011078470493153388563219254276584075552182508420282064594117076761479280680818475239228396593329603251605238444996066813492926721528850086385902376824570536472, 224),
   (6160356716764530140010393750223211783967667635266569691500674331263635441216857830017085070749149400104239411487337088045931511931135680999901832774473191242748078602080256520264679106356014633256379223157383558930276519995469015591726137212460911608516875732929594908221525465426485123662780481637629578762971924735234014121735186998423590210331176077027028990800127638126682745354551038490964920850270887610914098491849968863, 224),
   (183116360710133487457127922152217041018606957114987375166598646585780441915784606467237553354611570239537295808401759010668913673517857194797325986662575290302589516094872470469249641708269106751242351955581294296434391682213405604716537437589426402523979167873469916952226100417152204372529220903440250460326569732198520301893797139951355742619983084446358885451237027402144006087789549183024817499213748548877135775408641497540, 224),
   (3468280831538430468825851681375668234373796878655078736314879648501426753405090958299618894831771112258686788667370780569859441217229388402944731852028406669667168252971184420909014336878436238523341502637606943677745680757449055778141815250615493235595001037639361933328718837035111124622145411161985452843553193625936749950536910280112481288416452131366217321820471860265322385634612234670413250438702509724944637450911532470137, 224),
   (1032776274405152869258201480938504111344943238128528795939616366743801692405025180475219800920009256150990348359385920820172673118640714578656918564776924637306604870775080733446567979234637762077006865029478499831889969087683607610601271148004364910235242506806370331610555206352738432661064805895403012596241853289599654502681015869325646388376704596277464113944976834548092194335133057392259970695565541815667045773304738046131, 226),
   (19595786698192132148866061999772525524211952364401194860179070014033061156738763914392846755799506784261580355970644910219705842877346044476637734963960497683619500629287191978135931003363164747656879489902479231779263096279587165146501256165977536781111755862662394923307261429248377854115121573065217808566075543986542637220533543082635519279552954542219127868285666010499071478835559125887834864978669179945937201597650158, 232),
   (584551371313316524000142038211193327021237872780747298501822863576991757901244252148974407320725238981460537171412431184217732985150644451519815907663739344715538356858695695130757476246804973335585885606684830904849722503628921907600319469770470539193147258852405607691574246795649952886162680136798105129472888961913404448517454982038315855821214801493044688492856888354220181993685310484019143413690096667667547907690481734, 232),
   (11110811057874938928407057153871021972228176990615477485721532697956745675870879139460744110538320346676316061835355664094573212911455207218253595724565602186612256856805837851603072878906914411921450670774705724418842175590525922638066212246109263354890365574129577921515217230383830243283273931927978497456964833440369675304042518927854339431506525225438245501317972627952973528499762024378402368442905425029346393305867639844, 232),
   (332025178905963785632080677703957809748063111739464465549035386511731318487906735220617463358171935741469585113362260912635672335565566048463255435553003947798425786695739154834270246508185224854612783024596983953954642382061227643516981458829627266261707643028166385168814172179929173239340402317701323713540600930366813726757914429797763406106450007248049383063942712585197063372413256354922873458975974907235167211568193624974, 232),
   (6322051491930840250263615520552611502197832707660206689375552105137388289570530230353163398896304277258823839184317372869812158146618012907186295967277827644182374151522521737562148468098034300383305431670807557194321197911009249981059674768036170848932618011679729837342158604088399408428182867267019765053012990227570345248000193269949119136527212853274361690249926425305241937716364591871310947644013186841698097791038687071640, 232),
   (1892543519763993578102859862912559515563959736914947453629501703116868515381068390757519541141580033726376635146164887202023332312723726476240555982652122502451026984165713182555340405096655781671292863240202808537541461577748997568046794315328875417691733565260548395462240781425596287464240293210897545167181425303090838242520112249847251414806765041313881483464473461735623261222755561223060378716163056971240453105938703662355, 234),
   (36098914018925097829005244622355411677549624760739780196334402520334487133447727615316563007697897423147884121742452199086627423017188853700033749973156395848281356405193599121479867752839775855188674014840311151579574040071862817391850742925486535547405248846691257371223725629344760622124924172094682858452704174199426671366081103571409470269570385392196605251327079888492931464360441819585185511047315296866096138386830903, 240),
   (1082534893305004326674835841585984042902584969515349943476074974182848790797971119513301177532983779291487435303606315479557346082877971544409598022077014071401987434942787940421654711715287107115979517773396006483473716022472426608922766348368116738919671599329033682204401726975441076429545447716633395835627775273367959474721504206912627809269469603631540208541678820112776505419416181019590536625645268587549539176596938494, 240),
   (20684677732844081056020005168609650891235934987903894052499612644151661127465547923576390603410895223463737601758425110076637513388849213170119338734618614821065217220175932296607964222377191565023110210503498289855095924961177394365530475696303784868663207589154090473711194785614547836477581550610253277893399491816271482692764472346417626464463830829728654809010416776106449729078533162622311297830111665104273087295654107521, 240),
   (621375028757072483511355773070354840626083772501810867555267035180955205918035422600634875903932689313313787864270025085265916651571955666491109264672206076984740787657160277802029804524574799484572243201929307721513912996899172873521667883963299008139891498014865333585326591283903177870559086989347569209650343006913208738490143414767848362520675552484504079702923642744733714110744887905244968023120384169253435487366642696053, 240),
   (1189368969638534660721150297195054926246066261804473908018727727038720514829269005605642459696126475349164912101109443829406657019858829757281861977240570352211249990160116107054957942786688514988828837103951151666668015685267700176018002352537467629948134436376360202238393700172836500597460939160089563478870470779435610254833957159919013521706670272709397651518098964626120859422015656850782899625231420743495702519500111182492, 241),
   (3579120165640737505025409252885243882006242529610430597118338122642301986087884034179656885206652290444687418098195344491131679913054464638988789364511907003432106936905243200139691674061550845031136120843112812475920138862139235751484807011628602286885775028565624321451481165795282304534420341058641998647585975719820082333703226069062806568119091182310743499088840182209666193277890554334211015813173412814899788407231861929270, 242),
   (68626589548143449923610372148154669244398023306118144492680589850134173705648821623445569924466497627646815428234014908956764110045854476995163436086780909322589124432238699377071073298791927314855423900897981451166744505039946300156238735741411882248007356978915983669155316499972666084473496189537167812730826163973434711703919328127327080202474874735332244492594310258927173588650303400290173308375852976899702035375156415, 248),
   (2068731455740346277904686548167670963799608182114828885134399434887250547958796971755841679649445023877029327660756909115874110989745480561335520252687882247983757809531230569680741787607576388427996677847319205611081840262316478264358218452721332121819977966510930857798956113829673172020894957131895075218304693966056007588880464667918302196372834703375609742473349625317187059714620740405173967140014232607012077699380016195, 248),
   (39734795348375057505770405473781553492506455494242405661262061523227686575570667719974984986266102126407506132947494632285966419716549742180199629494246146497779103046266206939324151440000525915301290438619931260225545068418128907790462227994277479821596259690792354544440928253484173662910154293742020163571148348940618698076569290985722379437232952471757369561212105639918833507828525668768010345549618873624927478482215564418, 248),
   (1199864244329400841184718197937249159003772745626600753377951672234605317816102243618388174196678113848677010043239007287206984374052378725574601746558971703830579529528113730414830236812394305288238073151445139254427467352143557393327766702578372630655587220576339897523394546021210439772119075136499143626616722500312484401550669507392615273896244127957853650634542782683968494634480029435000900941208254912067005065640409393168, 248),
   (2308591609740590841085260558026708257914625064215483768919325774499528590040655794530546627702060533544276106324249438135814648985531540020669598473615701111520965886988066623174733198664030555679004974483818006219104168475093289542625855446467521577634742688035035799032017931527430489815079964466411371503483719073449946358248675806270470245303234538609103171506423337679284226804837341355421401076432856557608286499816724292689, 249),
   (6983209901997112895695059911994790105401957379546816384659678732405402949689715057859019173824666622599300198451651022411544649056984844182844182164973215316293972861853621911014311978248134856777545585741410710460767859989475504029167602209006128710415517623754298203586156257843444759473733017294425015906909324951818659217024896533025020894076140824714708246693038995220696638772673771311705243477832043588229969482027182668241, 250),
   (134590890847876446035270690532957091436422641243762703727996692653322516799370232821130868395030129105631296998703742243317994035856488783205037591011795374801672311211404284131086945482112981396085990012406589762573773022097938780335087372529056507976105498712442587083566645408049197556219161928391782958653100821982131872685897799505568415301178573600910714898824480586702270422722017001021067682756035537308563102939315026, 256),
   (4078194582766313931085914988604957421554743109655340768641252379724755322618793593789667197513605307597991315895764197088342075049279149002781002384344357744715680151322515196032358195296910756358086622072983854909088430233853694353033879690059579166882662292272510150894315254580571739532660082099944209289635045771862096982742539575286612202140466241633389616068734773208886837043241482446035862191053913455526302177503874678, 256),
   (78735671146007720930633353961779898490307245127601181680878065202193672327631586200361558011092625526794308744241689212341026510976045938174946990741900294258978302058671506216685863107036094116710304157257855011105657217927294186496026112929498057166021716746778913443886487563708780570388209728109193030812063980859547145521250212710757522951189465556532768215812321143220828197292379945597324594412280789325509415219499290364, 256),
   (2389822025501059963616346183322505049031079462258029690423773894518706619054613045960744977742972710252422911114917819493768455978877581315629667397225793638403388568674993904874961902443989703225838760534768538976725820117038264890877853498374913391793240103271690948424068739184215039366138808110567306643726136822311188831887128191117954750454313217597166315016278577100407686507339508713377015243957593284938413076017270561455, 256),
   (4621783896270653218628177877556480041381035288990189364667542427368768565631974109961223455251137118422825923286987156764418256194293896570869388356549547273002026330844017414919460164383018724650894854031036089151902078692332168747316732828961535955645474773035922219156136819989705419481787911040009630908668155676455417442097387486121466597234821628168473494268183251107062615181062702806562953692000882333407402673384608344385, 257),
   (14052153509946232586064115557936329688302747238077214579691790499769994920041124710249180469128679536284246717355716778623358521155800178135902444295687666593811924783808964160664775986370659454967931911944439009183147822288184997558361778570444490743744251807237542776733524186403184431472896191690135763065109684515189790331496313763773573932671361719471337932295718033350397196663156311234656849634470648515437868886981550, 264),
   (272223071490341474577199676988076674437342978521522153578918248972020468515723275076716061514291976275104446881603543533424235289843910508024206974200768334379819350886712625738756203682159802881937706902428025651047032434978364739216955563625834467787518464131815818708296458697393649207477307960256567260520554369343224087339536122932554382577130993899123088812395993490205988034164593195306557972458851969437696017462353431, 264),
   (8290770570868277225777828179182434516098620870465556602018156394864297002824263579047016476785920926407705563239872899387781527481922105100182442134455723290349035622447288854792217831958689078431079828047219015418057215150029148559433449356562249538809108566270150238272779269977878814569008753097180100208414713863961976295582825120626408620276103414488089380054473639676734346031262223628447541284337682624108342643319115031, 264),
   (160883835250791811475125009099953314592469700306219592765140685142464096892792455570339192354946557978586728107027694228253723056297751110242306321752654085618473236374047161811604916376156443503225184779334963159768796169072213560877220738102868170462423412301903148856603207090159646681619089004511631250967647632281845435617665848653139640103084417394381745488126032152711738928191274578426175761723181513937678346320250878007, 264),
   (4908136177954020117660474282076001233530383555315609508394748585759663825671964038795833754257265188433361693438004756437566664269297886219308005743597788187886629088488795002036992956519543934431199258203953657127489871368817255947184602019084851726974992271231928941057485327826904258224853181833530619323381510607465489966985032471410833903203453221376948912992248394688626732850507236388040944440327908113472138844844916098827, 264),
   (9540411430371954420474913039627231555333453228158821850972842628948120945742592615321114106648330888130192976746742267735445777238456640837368764879932387277175462916980996695428171541106077099741253457414563315374289612825982264160019189769500082508421708349502856727196570180446467048220011977967539733182381504594313434332127584825131180658112905951486837507445873706655806118441742582500672222670184663776504325936790877065827, 265),
   (29154328897046879498903217235531447327170478318574720479864806599412403124491466390447252500288155219294168459021748253239145985759629444142689554116970861836046576785623442312099738161726090970521323593731484723337289835930774500326276535993364019258231454091117657909881462847291811293855627900091171878780886173008345010403891092880180353385028512134979076543173955464450442793132012984144963209975547774194024504738378801, 272),
   (567654480107131288018257325857820277542340467075449900132884136422413196271684260611606289345575687843746482116431164930259023745688170129823441510355977042991940043560369303377976206695811587434604580716166517264770231963145944717521141791285254909251091646795419975268195925736564789369090712689068614124351699523361649342761591297095305249157717904113466831693029485546020464047283683658789997248875987494702007393239057185, 272),
   (17375980022639940181346317472376742606993605077870533405999424733249792262196913968706562490171740510699324401576961958930531007512739148709042974253714633654283759764231571618011443944388750218430708861863964895109024742214741602194460815452044955477905946638306124114289351856985919531137954228454338439753408159112973626200719091356587490617476993232447529619731677456812463904706679738550398073145426473419638604824073765769, 272),
   (338889724623957378946899623537118705692777258844043590379331829444180678174195503585128954739308685642716649823509405463364637176175837567504594581682518294666188206005540474116651795397399517698458934687551410807067828481998128996360121649397297180822901713136865725235112967664729179253347155475373962632237964615446904657628670004365897233747157588755739698520738602870974217036228359144297628357578964534337098413763717139693, 272),
   (1039083605353868422844509784848129207898217583656657897678765599048337577279375455328652436912270082539819599214302325144045754249261801092800769860372135092526168833901047982757084347874447263062156389939465100727519679584441547811228756764032288337578775608970706222034503241047757987962049662861569438697253807914955822846803001663123931938925124195300362271259954311917385341501459448365313804774096503110494388568479611193029, 273),
   (2029949450497504699891928744987341047099735780475821106372197658370642262263431066474922438888459026999872732442821338725554176685293267029352521544278284585050467353973187439958744254430423111013769018778432950734336292607168792688197128679889810113129181261689825694158326676311727783727549461297490036167105408046526958899195733326151724430145473956646880794139224231197135560047007871274342793861897997560679219498444665666766, 274),
   (62345016321232105370670587090887752473893055019399473860725935942900254636762527319719146214736204952389175952858139508642745254955708065568046191622328105551570130034062878965425060872466835783729383396367906043651180775066492868673725405841937300254726536538242373322070194462865479277722979771694166321835228474897349370808180099787435916335507451718021736275597258715043120490087566901918828286445790186629663314108776671, 280),
   (1219999619749000324635049175737391969306941204065968484929690792680755999620322070951428385771963875226923512198135624574058060187861253484640865448111249035615330879737885651415205296912684289719275180285838203391336111856908444405606474336613775877990637938275585242189154332463348398020257226239791511736430350235962702298416635729017186382517429847944775357277673762949478471588251730635880019111000696533968210918565244065, 280),
   (37531699825381727433143693428714426989283619121678483264157013437625953291331041446470926021271195381338283923620599984202932643483336255471963807356641519542045218280505853137185886645225035141805088804613479438278010826590028706941582694316846254753345374996021908739886257066645018525189233822559888125744807541888204321226524420072036421633975485934249085237909549746455958535032715274955134628440365692351057315093483556292, 280),
   (735659770708647195754934652969647357492085546051778996412603547986495867771054208783711316620494216761834877855475781618157010293280335851238441865211083168476044520481945047803368794038348626700722933712360436644975675449715791976580704024978106854428354676780177901040060062475399084006215107422594281577067501192285509485945231344597363388658010198310699540438437279058535518367715793573435651523933420009982831183894842171632, 280),
   (2266914669453056336961879083094351390152730594949380389155083611632607578796394903366843931684780201032832348986684239045857131666393509830506613964341147780339531184142553529486027553371592122565027363798654158071991853926037733899271594736737513787102060649759723287889129926825359118921429722882617242794986375530047541002082074972350999866692119350428644748369736804685939895515976002607290131557798087818003861831646406800049, 281),
   (4450741612787315534317354650466366512827117553613262928296251465318300000014877963141453465553990011409101011025628478789849912274346031899992573284527053169280069348915767539210381203932009191539373748959780641702102836470780541458313259351117546469291545794520076301292363377976164458237601399906695403541258382213327332389968649634814048501380961699779732219652545538304139886124680551119285691719797191060396128662563795138379, 282),
   (137375028968855214019889872435517694243255474053932451582798066864936019275061531144030742260097680182589640348593064886178942178983446695728700806239073555488575589759038743886853269734318482627440658246198441979162706347917886674295858641046293335498384875375439231246081273565616762606638641206686604913376174357120880984726173743324470591921542432635975871751206050363967957668268145758001781972402564121771034026997772252, 288),
   (2701600158961900529330634272833084473286060355043250597475824639448208100009030923626862253591271936925324313692556486625438896750528041363295491983707921273753002094791870896300701390786729579264399865618586849513176421737763788665196148426128350706859968297273686314884464570431531826150224049743364109949543838003489690760710970328332127440338243751766297457329095141750612910877681094529406414873916894973660450098176223648, 288),
   (83524017613063970124093042440794758099899328224790930562341224653881099719237410935570691294139389551014501331944583450796796844821935591003050090193356721737053958573495556283206787998465637437483920213688652723330925459534075097971882053756146347983018004228267052597617414327894991664836293853665455787332714009129495638713513635941278119888297799042673330024733278621292518262307032620865083439220758986036788688414645529266, 288),
   (1645274496807797422362356272155348444231210756221339613862777205423958732905499832488759112437084609587522507038766900354892288121071577190246954618078124055715578275728249375847127146989118313772019518161719391353524440838298147297104454391512165580477720693039674965764638923392802882125486446293708742959272197344125221673272980929954265611165990444825675151513418941326123262724507786568408506658215389038959214109789320202238, 288),
   (5094965074396902177569675588888480244093859021712246764302814703886747082873482067069812168942502762611884581248619590498604607534138071051186055501794760025960291472983228933275614067906403883686519133035007816123186453031578580976284805279124927226964098257924290208454662274001594491555013925073592803027295554556899233961524331792417965313186165741603073131508729995898843614000728989872770089792466298148244109993293377285253, 289),
   (10052627175495642250633996822869178994252697720512385040701568725140387858052603976506318176990586964579762518006865761168391880419747336632408892716457337980422183264699603686425946868103512897147039255968105481170034333522001679985308216332139331696718873434472414040821943821930025609786722186854560419481153125772605104423697913482020562884224201617884875175746989731502613135246742575932975975681696027028040798210812746, 296),
   (311811862553090413267264146039974990938544172128789501975332259877868921471857102504672504739281169071847336372415518938514601981089249948332586596709839313588769838146573610716467580955871917681614970941742478346739010925532609155748630083082445546290202813384966560757425331168897582883166852214503879545270487938882233118445289105695979477166993343386108075648334275749009229176844614180213529495298937446672539531589554689, 296),
   (6162260458578828699638640052418806723476903702674092029950061628511057756986246237598373042495229809287394423538208711596224222697305117355666651235188348181998798341260857059779105430147453405951135063908448659957231046448987029830993936611601410330088669415331589807023851562843105698799260700541845537141946866098606929011726820964478605048029435591763428482732904705411101851906253199046914273092879664568189009303228213565, 296),
   (191452483607597513746100185668544644436266121687076754212854007565011517783720260937868917909918637810114264532663128628247965616388799468276208170379841338543504680621996196979911094706905357456511592158229881704897752708277022021629658871012621565422184527418369468305059153337703115890264447259705382040796079594473691134725407510897331398980533912839070358448077245309891666714582593106651107110113547592256939272395986579572, 296),
   (3789790182025979650277763632237566134938295777144566598419287901534300520546541436122999421134566332711747570475998357631677896958842647173734990509640834131929260979875427091764149839540683844659948064303695925873697093566127023346061271016134867353004531690428927731319668711148510004761545330833235005342297322650643261342211994893154342104538102888934508516880736393827827638922345717413852277952120993709436240721485351342518, 296),
   (1179347299022800684675977143718235009727399309592392805951180686600470949547716807377272534325098808910303869521204872350007468196955004724581442329539822645427988832631496573396252343394537001932111407694696071302170156682986455653238698645437748843000656688897155924759164384560251193884028995119785153371303850301957937389908510267127561417720088903088673408040155831108932666961828773536970819798299453168302745917959277330167, 298),
   (23383005423100294442213801610905783052569284944981975912247006352466634211772160660878906428400274272831482509836909866587452624236059133061944891444483946594003540245831385156184804509966019321551879556753803862640711067303003734045198042169552131568037960529946484102242355947786306729378734691241059982961974480754468922481448008490762290785000094824725917549154143549917696532150873076443468554964586531187221605251564617, 304),
   (728836630796090823129753874817869236011532773328098754077829664319091046820488986959154426212911063906567791364104611112304615345718192919791331359655610394874497098566264882358883948217823867194044849955322172064741156830085629593701515762880528784974405833738442361501163589658235237820329918984027224783465779486610005306963459345084832956151014942108800166168816303625320388182410182045847966635349062058011096977298833390, 304),
   (14474080356899082259730343197150679709540387380943843089680896932176846577086967449084043079179769774882687673589047207417633174402120603365343887804135562941688191412169627411678393991668965960040613445630604590974600150660559311373977588102952769440615497568036873659288018331679723865485436773878216129453462203587016263016016317255781857995915058696505342962926414857399054153401390434318507035523079062804890173650718498407, 304),
   (451878711093576310340447402387078926327150319463421227528254391877836449028703171914675744252004859622072030645744858889628861514345279610270625442986478444822188201111084227062508047895050797660307806972299746680139517234653090348094939772985927846684131616917834264130721425588105847448604549770096879365748783281698203290317344793952596432813629264107456103024666108247698640673094312868425739313916418475966880125925276701826, 304),
   (8988403901634330083292543125430572099624580563566126558691836994881821724371006785881190752170637030202149045298798315806350201303716894689878554326368184586788366866957338622652282668826427861185220949736605450995226693560207332363240082211933669822622223989750898542417859383973108520466456236578372216390600028427537099332946133015840533815463251450529817979977303626444812629262263459711792869059832098001836797837096187511297, 304),
   (2810685583002044650317582842847630921754874987062480035225742317480142712958533729309283129247470226849288030616533022293491518619227639175883290255375895926794010610910943892328800057907215961447114559367704424350467797199542221965150525387972471206375298657228929122893087267158018371130320299570002589654957432012162824465773884618385149812100774022748376960813423193300685544986646626041608098532560122920513994383255221085362, 306),
   (55997756307181876418912543671432464180661136911016968460650144478113749342831372276039818386023068698159388552211513507473561754122156253917943393453273789975691525581144219619123721026788645575183926516859051959700262300880091680622985712180346762994936455456148097919263263962152466082506022353883258908113438177103556128844254408688686525670336056536800766015258601592751182680303901354004469574242753970551443250525109248, 312),
   (1753867803793275861798171693936921695175041991926987541980863206107609052886125047088992672650421421553955731104716605911138707618398046845751173119354559058319462621208428988813171236134102759942999485045447560794691905452514346506253927842094822032778186362110851772685286454706603463585319866931681615944693437575589602466642904001872333482750882990194987223547576072619627780071667494649963453484317516702400732495151257957, 312),
   (34998597691988672761820339794645290112913210569385605287906340298821093339269607672524886491264417936349617845132195942170976096326347658698714620908296118734807203488215137261952325641742903484489954073036907474812663938050057300389366070112716726871835284660092561199539539976345291301566263971177036817570898860689722580527659005430429078543960035335500478759536625995469489175189938346252793483901721231594652031578193280122, 312),
   (1097921245174590689485655480404512981179576286946294201280020367023363267106714279477709413079163809892776287671552595300372830969117177325440234372715953970507983600876476546997045193819948327724317677638450173057477132813273980912914958829151358592519144662681393209700989320646333768204410236699232691581378091922319091144118457905172080760202052751862062001940782621459886990324863851650877121881182765455702858541964687481248, 312),
   (2194412075287689782166135305124259690079658302700477451551727536736082552372204401067310383002279004609121038889788685574120201239661998200409406730950166644672411658711089106324410817737280048477520120379414098670754028915738592734413252596067338774864072348187803587211129156516849764608204750992800208461695358565245605799084219640487903224706294215535880018222946449915936971284409134310050151440637921220984682379952718663657, 313),
   (6894945419696429529969916416940341521807739082022727584038527904906721317430165675120015114137148726126635086577350298486341378486055873603764671860656190934790137013504272715141443817189275498108715015569467086800956394067360600133105941447070531961020228481639149356922212933658976064323696286471181303131054417272163892385063915644480667174068891281693749372188114862768090299240144988367508325413827767061813951643538237382239, 314),
   (138028519535595687298249910692315934506010507239860031702603662060699592544211656827133823090843349389913713346167708322612160657974739686805751683376765481949894693332927504787805440435674915049236015571865146806390428418799957482994593588292635608938950150701012845635580023944909850193856078837447133112240638053753948604762397415386689112834025906157206853146223331699712435493789334548102154525616125244799936521699026003, 320),
   (4343815614408750603881047342672415158738875621674318377944272580091234429981004375325609521906403697459780104543730688046395068446215200370371743272213400288917786318507691810539109604829243563808490459808764264684602528262437178083856743111654435135442743943432664094860994148205154920523928660476844220972564282881463252202590266856022820319663401507467062104478512363543896888521291342671530245010711493248942789535429089550, 320),
   (87095995826960878685195693646851354673292630068351680004342910760301442895397555457921442370322153465035553121431823951568273375182060742374429312210739019110383551493077255521105232914910871396067925825846907634832360332262773171769588554212653069240477545092339105596050995109238115472323185746429140993823842611918741569605072769109000830198270346785197524335266922302518546796581070099852459505663775029468759945192085408488, 320),
   (2745291468306330381652821920568966380322969392898169214860780270617660159747994765205785217844847136794581026071637794845321683258008006634074941748038868982596040953296861224260717270252081932326965970599139015280668797861860296548997461646565603005599814172249443707952148301665657909771122913421365547654660626781084775392037048653006422442027269752719183250030419813759742833545456128568407114846769663733331842986391184596112, 320),
   (5513176535846623620772887407845690750819423483326661344274906251127081335278665260486427302041392314336750512586634456134271704649024444992301375462939779909687278809511790274485961243513858159371099704776109253284888409032233541773014955481660939282922228604345065384230027990414772709398057657748964624909049237334456341356001106284599752551550512951503003290422396181749424012223581737320660686708516959365372504530659006357332, 321),
   (17405147909062134619678890976407246851247625950974392822217346915715965412802286811404678281136330847277643705294183619319339471855770762060035130682566429349658899643902100161812947493398199450952964253598541356879440178444194280120643906839225923055502821852061473108416620232560271147948919271091457572130548373792077475985514888460060718282452890232239621805192861619236769564678191855123701108128519668069323884533720110, 328),
   (350086710026260599919078350398201362677033391191242995361456546946569664790195244040888133679628411960383657549251287964526253245213052257011137341896676024265142204403998682429858538963129993120064831253282937583590413973546829902586449673085469644465561516375911651898606777391338067046776661267059253681724626570737977676106070249072084287023457572420440708941822157541088424776197440319861953605990826919701154037696846903, 328),
   (11069674070163517618115774660995008997393490104819713834930232638395354002542254412053375386802706418868581396567100781887099904100270204670182343114112249066383060173521735702913034605801254850806085265288672302975323953490507562156729524749747687063299794697911096896952970467908332450095512656414167015875028765731761274726787469060598616827640038187704399468102659989834585443135330019858673904769738508892089990563445990175, 328),
   (223005234286728002148452909203654268025270270188821788045247820404964876471354370454045741153923298418764389858873070433403223317200714287716094486788182627456895584205347160707819889319513805617481297508341231240747093701149330647947568441755444163524562685931455722259412517198282348708796733227116744595258587125560091779679566748658917690833942473631820731595940714353673326582437769483752064447016156747849635122012891477650, 328),
   (7062452056764324240357864233714815740337046686874977426685488423296235853621958314890053496780126695238154931009810298843969738815972390579576334906803614904352392390706867378458516078501200594814282399254172929298256682326943824655993436790339024346385269017267279820255995158525516103160937074792238556128268352536863693275690405260661917536034344363755406860649497073514465512720340552669833951243093168673153413979478541732178, 328),
   (1425003447092191933728614089811350772681477026506571225609133572387725560651954427201352285973569876895904451198198920069446596996912564298505843770576486989449562783072168356922969092751693217895705491078300467628373928750344222840384962342817288204921955563102002065237645984897024208249211125321275997963702371732328986472152431523930484044428892406507334474898061164719972556861777347001175691816433241618759168429662376542189, 330),
   (45199693163291675138290331095774820738157098795999855530787125909095909463180533215296342379392810849524191558462785912601406328422223299709288543403543135387855311300523951222134502902407683806811407355226706747508842766892440477798357995458169755816865721710510590849638369014563303060229997278670326759220917456235927636964418593668236272230619803928034603908156781270492579281410179537086937287955796279508181849468662667, 336),
   (913427209586095029520041631569075845288826773990712155615454619900532084377902787836066815309058291090274753218045507764515268675020953715342245856939528160237169743949259916787623188453835352671147219781190599749787688328970646840686760861745881739354973515948383323817331076318992517487744331330937914694733220280422880328649708606839440272478920032571201398409657206585502408948399279427753618454333707877624626963413583363, 336),
   (29018203010833255438782392563487434913896857427031907250765334833639573875361902324220251807570184565394530980533108555890102862847067358413363244865074692919003109854936376684610350863345733003972923522055545731900677056344946786746545833084144983234427793338147799325467832907349640564667658252906349779419829006903465542931156737135007686772057914121798215709036653575656235898665335262809813738867621211444252747358881432269, 336),
   (587333695763859103981386769098915768520715615676027916060737320596042130254991492578590962243724481171046666319203261492583317758038473238965064086012116607032500145359374126494441710175816131767547662319305555639113483595528125918561587234102601958405247970754810477214543882073112188744619605045793079148713460640311912051321762634197760095203945580943282499177409583834478048953820736672045576666136574165312635137474934102758, 336),
   (1868772273897661650257586081088590808454957618300854826949287563286388557573306509679784216407519886011407795146332190999322624367351137881820592969310810223983800274657902658488906595599465205455856274820377145134403602428614573066477551650618936920297149890976718276560128439233316852364597191487168925794636988044583180964766493871494495028120529669443805091661960490272261591874047590924952004783074806017009876929911964238135, 337),
   (3788302337676891220679944660688006706958615721110380058591755717844471740144695127131911706472022903553250997758861036627162399539348152391324663354778152115359625937567963115889149030634014049900682421959520833872281969191156412174722237659961782631713849411368527578033808039371573617402796452545365360509201821130011832731025368990575552614065448997084172119694291815732383415752143751534693969496580903366266496636713324962792, 338),
   (120722688893788942606640060838322966226190262142235221820923976588300700819235600525314060379925784636336943566453059538556241534130883507165610305817478340469353497742900511738383366075725452272448315353396363575682472716888501420094449836629983325051195882957096000665784297174472268662752978570071112606333549427680073490323915504098544378816586216646069808921362647671588098835063474373751899508986632468698838049672312889, 344),
   (2451031612476948619779924195465140339402224371558415897908865949445373215873617747254346874087398818598953395549983090697774072501958254597187057190541464418637677981606472135980279422820207090285741527007809979515366434066678198677045287765995273362718860569155437342987873801473408130459609304796851388249453578271117655776973413736902382541300345501113459361442206804778852069991637007242946998264287844477974423323953521250, 344),
   (78228302403175234809102759423233282114571289868168423739958736829218854130864669140403511126191908444346339431061582580984444514116812512643315478169725964624141066537399531606472421217070093072546508349000843597042242320543748920221203494136229194633174932156198208431428224569058030093463930113406080968904140029136687621729897246655856757473147868386653236181042995691189088045121131394191230881823337839716847056187658752579, 344),
   (1590719516497539654237170802856876080272043617141411917742854001190047217101977917968071121282721833270720753711939025862855373053770907233574400116661410407695853010062600416251201345410314401595446251028068676705472815709274150941402391760130932412404540509381878835599130097156241876668286438813156550973895372297955358599255745515249646269303924230222635125575992216301474993424572417700672601873522811066205400737245835291851, 344),
   (5084839656206390262591679362510163337447133841430947543097317893899225518506203494126228223202474048882512063019002867763988893417592813321815506081032187700569169324930969554420707379109556049715523042685054833807745750835343679814378227118854897651156370590152883548042834596988771956075155457371395262978769101893884695412443321032630689235754611445132460351767794719927290722932873540622430007318516959581595058652197818917681, 345),
   (10355584052398983149083981926598263282571003947590591584505979547747207383333876245972142999550519134592392106664723058367188478580048606090569344759465781754100003095507528709795320758621146754386355094192727085352628030267374722628529570358452370004753558716076031219750336932487134617110544716673649146840058873659689384481154903304275197213168546738749354667499709328122602207193966439231378638196633500040997158799470387, 352),
   (331531545584656645120977494435662649601553126461297779809945126682229503806604467817030080152801307987139786508838986978212075850827051428582370996483298638077109839985499214948230121117943054441452102383065575164265022954464407923897460408149339326855395362477968007332392815723667931536100135820614971146215745443481282140891304531327520938171200666222636414935260215739259355135223354848582436477167305764719997824123297793, 352),
   (6762196386216535996351840198068665923518865577776656304682404644678926421317021188619809378706488994888832045652064157113774076512771739777141782127931155485427302021366416247496344455379608830614289876507850786735266103764595693876429809444069397613104073841597648386496970016914098904973185699987892892886558444499777168066194151857691703780199061020403328597877310191264059241297660084818090250742401675526771144696054163200, 352),
   (216821630812365445909119281360923372839415744705688747995704112850178095489519321952337672419932055423589420376780697483750697606440891634292870631700077309302429835350516486576142499211134757604709674958524886157429325012219722782228939106929667919763428567060591076795384901483278827224609488826682191129625097520036758520142913163488198693563965235709604215367660181093475618258436074070972913456067417970126878576976636756905, 352),
   (4429238632971831077610455329734976179904856953443709879566975042264696805962648878545975143052750291652184989902102022909522020115865489554027867293794906842954882823995002642110105618273643784052359869112642265311599297965810179489061525185865455436583168366246459693155515361078734782757436633492069844840695781147354045083357169466788065976030384968364180231609638175277958803049967355555849114236273097470035099775915476896470, 352),
   (1422349898129117325163822485727657325826567285269318186851818980297168306411246752007335131074754283578746597671681375493404576298252249120961231343952507149023939719899388151939494794825044009886895467727923253192736372080161381451421840541458621553648091399917477463777724953730309106593438246703035173810340639731441135892137510352482583429779611946255003652811850787973200055775340645905582312271802261884032323464966737125297, 354),
   (29100097818624930179900691516358793501974910184125173908755026027679058015174603132047056689856569416154855383656810290515559672161236266369963088120232537958213580153647167358663393912057839661224004340070059683097207387635372879243134220471136042218351416166239240184031735922287287522716358682042898880603371282138116076197656603396797593462519629242152664121675322811576189336038285526001928680532314250378130605527764683, 360),
   (935906232968959199957795195608798520393881273707211366948496889035536745618600362820826516247188318594815261267966345074660211204249979921592490224320749704057752335693797403976187574994878958505577217764973500600820532828746188995035571076279772982300444141145700171165743019554543392138482366330597144367204140943288267417026481811933539896794984660635792403550197818486365636700174145005873161474845888319693268839948113028, 360),
   (19176964462473828988554555709280444917801465811338489605869562152240499232000063464019010358615479245246049697829837981449753823954254699537805675071233242514462749321253483289359176588046116336746618860106169331161059668451710727421225451290478651821893583253551659281276913972787322477470080371466270362317621674929018494214255701638489614091800435670578605656184037732828708772449230161635271000470795090999188069042796926235, 360),
   (617698113759513071972144829101807023459961640646759502186007946763454252108276239461745500723144290272578072436857787749275739394804986748251043548051694804678116541557906286624283799496620112613680963724882510396541551666972484736723476910344650168318293133156162112969390392905998638811398361778194115282354733022570256495237477995876136331884689876019622986343130560201001320222114935703876286573398286290997557434365754598774, 360),
   (1267597350969520096143456132383437409066676890129474162947978058263096999235204194971656584704483178110763885026552290573828727763376235639448955122208517330205987730134855245426641572469848289858951506653017792789746044084658079082543002330300638885427165853059764678492404013601242015760772312553920470949194792712808122467562301878304163491468008797825245833873764894139977649858894113684091413131119555515046331363728876824151, 361),
   (4089161513087976536455598768653962495304946061081547904471372607574067148956788705236755214787215201604466839531998554900205394793609012273421908288102219606969131505113339617452758752667625145502567979858722218825105072035357848957109417146481584114267100541493793187857364401037710988931457154971645043169188332609415097998472104332700022517076646979249904169591524308530628739870400874359661017115896655246403830215501295443885, 362),
   (84041704369279182374311141577021900221120677815584137003450945262843331049294038126620831565907234708743645577260416865044844650711844422895465724602424698992656986507940902771786336254750941617648484891095079661960162722812830643172601054498932358103821096057862398184046386101762345644939204322324927223931614756859178519599380614531566039484328983295813798785830612481480518185644679737255260690593226530647571769415224533, 368),
   (2715203244690416420206517582386231096882484184558147808568991411429180586907307700277205462618710893865365981449247040453736382142956384149552147103299873819027503319395257505988631811771303096613705138626191553299869767831477611707520652985263771851873354759551878676737289962289040096650487550901172308664341052852651625070985477276912814951338893594221936368608772140864337483273946180574814915364955379083612143263092860174, 368),
   (55887733405570656278916909148719563647045250747363451107294878599790815147780535354202852991328311081314524308878177215254821692723376541225484706860612424830116896027780700343237913609409376175736242452578227975203508210670532377709779701241790018139041028878478494792390846757671959853884570874346076603914523813311353715533588108663491416257078773891716176192577357300184544593453712025274748359244495642880635226661124314738, 368),
   (1808325360963817335857540709869229910523734466915726440506948280011834270880266928384618838104061455314333743645198528942188430507208951843601729970797715963472317210717241498988428786639687862344727622325043574497713265375764089397208754888185672053347654269861551198707035114884500704369224708900180757570451141199865982297276327866423934757591703133751809621493442245815648763860448156262826733633060282469685687413219844876376, 368),
   (3727711818151562773803757840219594895257918224849142188856568402606047370356961708125330294521598349123678771402174420257496606904649215299739829947602848736168796965052972712893968837747605390921607371586967805946073997651724509593242306072827394209874036626194515602652469478736719722254100877318883309481098738347867292826090326847854877464347154218577468952044909731922309124383362592085825715561607859380138369618296991793052, 369),
   (12079613411238299803528371941926455802298546238997052622586414510479052929480183081609253838535130521499749407549926173333818715788155798315259556204928742635995078967591173213242704294753114920462780517131291077644724612710104117173354482653080289316362330522675162007362994567428464705186421055453207460570613623215104761745805870147711884180712576933462088271576194202048533742587793683835682580668842686897500391920308563, 376),
   (249383920634339549567471399510690898492754729242407612434504426134344569076880738273584596703494929556374109806805468715226523001921032503552594623494630580449692516962043874492606515245314800652655533159168146217792350442900369691787910276272152672640573050292413093817450208127486549418799348692633293404285505595472321890065442866121491302364824617222832672891804461065602480421246957410541740371071565792531256927464068750, 376),
   (8093340985529660868364009201090725387540025980128025257132897722020965462751722664678200071818537449404832103058450536133658539578064384871223902657302257566116702908286086052872611877484586996710062946477965022021965490515769758506147503377563793841962761450192358544933206360177071352474902107153648998582311127554120190369689932998966962401077426545419599141956050115372517607533821768169907329048124600221325262586606737728, 376),
   (167336610745641837759773309071673592888638423321655507943552469936145205850586975381575264388045097732327027680366469507916996934289012809883790992364897119481743678881531439784538971729606231237931862749801826112138667147186148063189687795378614443341824516746209185951509089653543474660014362972756939874275574254561927988233912163167520663886797318156520723510400793375019264362656708422473507788989020646788473398328390131890, 376),
   (5438725142275932103540614183132967460426897458646032972793307269198088790969157630663750448262057166000047173255278760281818538596459266633462462585707117084430424354368249827530395181669642461789162300033192494798760809626597277716131122269722869461798975694529264942195114674038991948863134216007252127047313077716368767928431634975305798733524030638521970623394465677530331832262728228210177725120339731348730576458199727753693, 376),
   (1126175390318169568123274370052363280140536588954741568460108122670257235374450344318001529331543507738560896288866339788281389367765056210517913378615757614112134958872706589749947279740249936231281436306166289734693229900562776465266598862898075203690478997701987821453656173368347584461896662806654205353874614733201775360814228858117414067958145951193384469224997339413879649160679647683246707419896108952886425970750065587626, 378),
   (36657007458939782377863739594316200683277288871274262236626890994395118451132122430673678021286265298840317947740578844299456950140135457109536997827665969149061060148442003837554863524453390192458953902223717414943647856883265651806723764097932140172525096181127245710395072903022805735337524615888879336298890143808325495837629219733561083463951966503638082001678698666554436549450788258136597867311089789290444085328266165, 384),
   (760168388464764458483210199785345214094862197544450558710572982802423633877753982414651032298791867723528604994984779357089937823241412942099591530565636389525691097239076948081214413824668706956114969506662245570917930182879874114054954232456200762491073323448841779481217917023634619511780247394491588613865364944911198368549604479229254495871748517055534516726873204104368763183458762186191527508429873543198337530256294271, 384),
   (24780137042243292887435887965757751661895447276981401271959778312211100072965314763135406342389515342016054932672631298746432898294731569006047010531502195144765276660346794594187087742530491770102252837903232972501905951253087580621345264530202126756626965018442018100227069282443416677088166640340882431338049737214428035186237352539887292421631529356459343433134800298590799107428732862500340158302296697560340201681907927580, 384),
   (514633998990645538393133305254678709942221707737593028247057909357240800135239446094718748866282094448828865581604695624749887906334436561801423466192935835708892872830855093850982158159300714609289834356010340251511438733809674775215204015372847916206456639974865884708784529825000637409475227486070805491586852067704881295508082232438205293705173746046596867824093159178657652675201582000051664123207024388745274507983511221905, 384),
   (1680093291464095257768153204078375562676511325379339006238872969567912584947048340940580550014009140188688524435204402055008150504382800378609987314035848830815085757571512673485884548943567342012932742409839195535629223494959337966127208935147704194099308228250368827195395297349663650706577698215111828844719772183138220785626892502204358426186617690367943484766539460244456179483668088077523062732895716094591065674033357489957, 385),
   (3494364853146483205689375142679268440507685395538256661797523204535665032918275838983140304802055421307547997299095883292051738884010824254631665335450034324463382606521506087248168853901651852197077975277310210307762669002567691723711235264381637351041840585429339357172646957511754328010336794630420769287874725539716143996499878358255413944258129735656392732525592550823085461664618741780350799396575695599580413909208041196737, 386),
   (114246343819558477528234417877329538262002770125795052424243361930618055776399287183959477400952621532830819661593899339740554234298030425745479137354437720495425831514862861797040149328162579256879426483869065296422787197657234981696650207590043885198752959521025080249286880219777128248047283478627604361440944508453399013422628690149896372980690002945020156964124683296623020204889429989271568265836908694432192465834268309, 392),
   (2379662464992755063074464472164581807985733754361552786684113302288787887417345846347518547570199741910440186160684296521887234180011371317404164093441473374959563555041145645416002989507024911346210101163848253219586377590748598063847351215043895036059493438677380102234572578065504697375039357143316543885042688092546694061616417161971936896039786349982003450849928527110521199393605363152418894389068048703314261872170676054, 392),
   (77916006484938881674255872992338745094685889225792225753333972836681514039504313859460363587449687885390619009207039349703057987791256750358416771675726525377880417093136471745581381841806879053191768861998702532160340868802234257517115441576409929705549518393339104730013652309888001465168247332424026174502724154765218127154232766682229326372830582008503747049533034008296899779734591252683209557300771729602755261698970986954, 392),
   (1625309463590051708079859234488409374854256154228940553305249385463242127106047213055355167990446423724830647147747374524448980944947766609787044075820526315097381908093102475819130041833298014449461499094908356948977495894481292477607740879874980309628634018616650609826213070818739708307151880928885199473484155967209392044084012921626832899995174077037708356930501184016485979185832463033102104867733477264363640858692571745549, 392),
   (5329454843569819506519101712675970164476514823044188241528043742029015560302095067987088869381558651360718340229761491519689166364921961724515707182619694335847020529170534667397766517979590527238316990160711253199767315426072823214170696203826439191859587058104394763532933817996339300217508117537803390335986332185940919897349521241064485923901611809381656298188059526167507944933846041683531533719372786304828459900209615507671, 393),
   (11133369825591854200347035756245604217751654656468242790140958290423208570676423409429182900734558002515089932962069515492475519472892201277041251919370605258417066070437751959361040786558091398978811268800122245100495846877196853471613025027143615120956143027524056677309559535108367001903990384362863616393366468375384335501975488513143805364966942427708302244973933110512928957422952371776749418343974319260890939882044116, 400),
   (365600602268889618147210377489571553283088916860831313368823800703190467436723721663914296439574923483345278139761638318250676812633646574301777512727711031439105608301098678183486783133399910168548545525024791969504037838228595672492109759582493728561567672185961480778359259914548875994921056863093312577048662387955547104958177157137023734379650570123581622055700883495091045022461838459490263213148973140511232349154379623, 400),
   (7648625070181603835638413564540730097595386748993682796826838345520744288054702882277848652804641347727866783944941757143330681877876942277327340068607605812532524390390735596081035020365408791098443341665683982384040646804634238334998148193647663588096870259909026937311667400619448130308041394057287304462242763773889038489857160608529794285732289447835603642297092046922382193749568279410626850402310357332232075698964308005, 400),
   (251533214360996057285280739712825228658765174800251943597750774883795041596465920504773035950427547356541551360156007162956465647091948843119622928756665189630104658511155890590238906795779138195961399321217056875018778032701273822674571514592755685250358558463941498775511170821209626684505687121808199053009479722913416408211225884110272329253199592245024155974322207844622638975453744860129301090646493520671727856218213181192, 400),
   (5269902673355125042754866945968563037243221470056647447013691620063792814469690285889437721782397888584500214138064870671754839813857213229078537307270640404834909304979216825699833129031766657066827462407656263862604005648392990212813724105423240212198743609077319559807738839026799761782240520505470952774485264240209547519511583659277028262869547429558730909542696420329521331493452544513921899927191836201907900156586408216113, 400),
   (1735579179090872795268437104018494077745479706121738410824480346698185787015614851482933948057950076760136704385076449424399612964934447017525398208420989808447722143726975645072648456890876053552133655316397692437629568425638789376454543450690014228227474053401196341551027078666346424123089241140476573465765410088102573216657458600360879071847077186490666676222823234127896208930630839534892177525460805292634922207905670950228, 402),
   (36415027472883914045436130596642770587350660358091433858864609094640808347985559875496014657516369410118896479694028256341825943113753343412932692793240125197409223297406388265585846921609507600331777765236904783290593679030395562370542833568474589866293318338724278158271475377675186353915281996692804283671693175899847973359825043085604265296428572738250830584940032264476992400619757082591200328496895588155183590082012080, 408),
   (1201020791930883974325758475980797901799871956636242980290540399915144564614805477226190292056101453118014599434472903001684532171734637336127575560227324947445823723459067146390272732168486229058076489478947203166839661350542042248506544067877489845933412044953627868353310738437111725493177754869209788838309663780966980665926961351449728317718177413051541339946193678016504176579996540958145386847618877262503366167870724297, 408),
   (25235614038708552433487238503473440017034007628157363664193174102586080185153992993718738157658844001212395260427961581644885378577831066985162356105715406761804591745102627068050991916675388767029921991309175014820381419568064124722786183662952890777341269608735924763682132436728904143263290423708113368584483370898594645538358754858323755850425000907607825595363442359282555733629491658235701827648348642591542227926834371975, 408),
   (833508429600033478182076382330673743849111137905552628321635037541110327842675001194976062686934408463902132007524194683169065327183838311272537438797763513527401664080592599594849276124929442966305083698389358997786724977276177320463541583106977953077787959197817740637197652475355537492265361879231593453786906663991084582153311177906111452496415124657769689922658412543453898546517599424952898472247500820177336120502282662504, 408),
   (1753875175690244394127363075991404081183863530156936774661425600129732572868202513063452301957289658084261470599743329924319533811159259155468783749347220769945419126284632581229543938208939519308579578395987663530016508659980456668233639764575225909025218237807146771075908204352658837956798684447713879116621594277452327864915933462653501031604537563078743878877759243970137623487249670247381277021560230660112184840914988852327, 409),
   (5801218670016233008147251621021489257189813519822646293118579861286127881785018008317033396301063482908758838772368394994856694677199514646456860574032434054150715582000924493180150961829508923045483382540789938624595605841842194150426249418424566553421404196016811474834895661228474540946166918679451890438356870381377948691787045798226535709375049267618077041861702551302439133883762491997672173366842605708434259398695887331035, 410),
   (122245099745610034270677206396600864458515288051938493193901364329042360328913715160522625446423089168473024500802110095725071506637800363136174227329501287665195713102038890911699212493163084495807996614200340148042150653600637829775884691590893245859057711175158129943990801843380321005588868306005657374428525121138427252184640562346949021902836268146588448357779819304718592357061302016242475008402748077009819283411774723, 416),
   (4049250631671330639686781631472999501518489836836207112596768743177717261485942569805289310618142311070313669463113139706409972884685261223226888680674638969797199476236645296239745371356997228285747401013471377159967732877605851516997522094060347454288140128819734409434757171537475229580424509238257419525973095526201808186867357967162121925143784388797417775219468380809102515450866219414375177010056138784487113060289729357, 416),
   (85449324722181413955203367271224004256502186348305006742537053666000609869910686897205315187049739328762644126060674956911824983139822453832185784903321400077971803458325184747277749532720996062569789633326037763481463306866845843013343399422034378855481340111435532830849570488522844382906618945897954504725539059675760649277063753080517366310082551434465325402088093693998296057585850109353490030873520905829863679104830531382, 416),
   (2834475442169931447780747142031099651062942885785344978817738120224402083040159798863702517432699617749219568624179197794486981019279682856258822076472247278858039633365651707367821759949898059800023180709429964011977413014324096061898265465842243218001698090173814086604330020076232660706297156466780193668181166868341265730807150577013485347600649072158192442653627866566371760815606353590062623907039297149140979142202810549943, 416),
   (5989997663024917118259756045712802698380803263016180972651847461986642751880739151494092594612186726946261353236853314479518931318101554013636223521722830145465823422428595450784170242243741823986142253296155247220050577811365893595235372299484609957769241941811630851442554891245451391241753988107446610781260288083270821514322169090944267378336786855556019310686375367949280553636768092665679651164233815498673443905248620249880, 417),
   (19898017604032918763420844937058319550461859058213121751300521603975302622941921788023191672377551316599521371741737968517298606755343373650936930976835175897583438226226874985722108754848284379796162728580198347364081439360555154354525823570212547390371920593020174887962396740935153278158206038396796959550631791415755685430266197050634667140156556486550510947428467623295929760925556602202239619827415865986969673578263730, 424),
   (421096835710651673413660850013610029696170469390037522377424876577660985457215962350034709401236726904322173132550788007910180871662539247158626513577114959226247386596730260190127168029735050226225800406719713879569555620139022319745046672653768080031177708509357648856411608854555232804295305363953496737922598252253938752456848487093381996697076115945588157541252188366834422920664796914397279476845637229556743106538978003, 424),
   (14008204393239174809448274835689056963525148776982037712915567209198613046551112938768326937353796126886063045706183529836178219155761735050259599407691963831898740511263719989948364563413192203376498560920459636544313333309830828665586179793429633362821832097486203121125527305618347907823377051031345059523644781156692002542907402723646805666670215766531559706989641206800334551691591847950376692358500769654826650199097665962, 424),
   (296873269176009429756630899259595070935800180919976453276084537987250994747337253456774470127871892467547132058448305545576677514522090169246831692071866046254504407550694833434039653460963210409489189286737398285096536712198010735420257904220906496421980284499097142443770184242461439127028190281587215200235431767839026820482078183400834307671438661741639651066582792798618268159068681824650082031176174246837503890109979492514, 424),
   (9889792301626857415470482033996474216248755036549318625318390449694220810865085734770438817771780065581560510268565572064341822723967784945483277181830526465320510800952186312903545381769713695583807984009844503400285213316740565037903842934161321154152213460825259403514622277766553622923304198028129612023693215496624553795292626322894644800669172331171281153134686692001036193494263844652965944805101543376307615040562952169641, 424),
   (2098894013074386668379380457765337151516107279104233524661917683569864532863674381939395503804054279745558223653229520207227110027671177496575100062948092947019346161383412472378660349969009897595088568257233405875632514555239935899421223382841808929703400611408616797077455202594202374628089305290821611465664502598621919620808292756643898555237071338513392333040740345086231155884615580500276079960415551925141152503077555012077, 426),
   (70019729495518150501531012800695037451041185658769175867254204383835083340924807002174706829824202864317448412701444250215540104885691917414021602447360127374469216470741479095357101302929572964733360526789699084074019310282523200468359207973862153771397671302642836576883525726587199650296993722039157653127747965716101840870671794366094085188737740104692670564193581779367336249939388020142998889220118927104257914487185701, 432),
   (1488115855269740147880980744555624040424920060884901568985299637651033953800345136795031412197074484339600780570139729826924021009618864845071745944630197899436716428420839442916470188128028017394917794894378484765823452819665114552689647378434842531159711033488709309127915738639289483611315317451192522529156132342422941011153079564460524075663083579005995164125884904666137889522192446574695740691934626314925077124681986503, 432),
   (49714007941817886856087019088493476590239241817726114865750485112522909172056612971544041849175184033665388373018025417653033474468841261363955337737625690435873143694226450157703541925079996804960685974020686349692553710300591472332535037661442129177692346624876413969587303265876911751710865542647801933720701055658432307018176973999926800484003795474331796100577443063350808737456965494301529211346284438244023119285901847966, 432),
   (1058050373096785245143377309379048692742118163289165015548548042369885141152045392261267334072119958365456154985369347906942978937839012904846011366632070706499505380607216843913610303759027920367786552169903102668500474954781896446962339286067173039654554544810472318789948090172534822847645190707797883518230010095462711058929839570331432617796452424673262561693504167217624039450278829514608671631965519309911729835648892404033, 432),
   (3539637365457433544153395759100735533225034017422099378441434540011631133050430843573935779661273103196975652158883409736895983382181497809113620046918949159034167831028923251228492185065695772513200841350272868098109824173402112830076494681494679597451695079691200674634615992530436116721813626636523497680913915162880380259694200548794788194461070237772423882361113946110577582106935943194268879847855452002974446093156211575204, 433),
   (7543899160180078797872280215872617179251302504251746560861147542097281056414083646822836091934215303145702385045683450576503439826792162011552061044086664137341473363729456097104041465801869072222318116971409122026408386427594921666841479109658943772736973904498667632972329882930173286903710209746598909484979971980649129850169756136463114564888705787920362064874684712261659401280488054439159828735914152679670633728176602840756, 434),
   (252730107893660755052552457199792517072267428843937895620718426156830462899800762231179014667814899568264061564144275455214373213487758943570712471350012969955039583135465120137714342013690678157442540072409482782205041445980910856067461720258720123258051028689951728168911581866673138733937492941847777734417253542629659150542165919183947877084520414976951065200583535752295239362435226344070798021136879273012375451051353506, 440),
   (5393887899528756340478680354348921283164681290539998791015720492599555955336069807478327805732963941749177205307663667162199959476156395838259723646521964858199153455066561109429389648048336386638957453634557522248881996295730368991791657563406144797506936341716547357575215866295073900136152799968818220281760679966164127842871375637571126913895424638363058876385399569267086471915548958923999277546178619165964503115646271031, 440),
   (180954757251861100617627559355051442223743479052259533264434393128290611436257345757524174502155468090877068079927301225933491220857235403596630129486609286487808341524993026018603468881802525560728858691845189672058809675322332172944302591705243608252764536542005437368940692616537967333499244946363008857842753536522835951788190798135706679992516617123496962683617811598643391383503622062354691383134005559476860822952769110632, 440),
   (3867417623962118296123213814068176560029076485317179133158271593193881619975962051961961036710535146234160056205594849355297370944404135816032221854556248803328793027282724315460872377650657189220132494255977743452448391344038674567114618472962205819812473357010764455381429776133567986397621557577642663942022407535739679663338776332138497997263019465706313214368331491164501000363448603548507482000610069941996548733918376329327, 440),
   (1299255157068362702434565876169269355166478179595223448838638942661126590112327742539023572925476260892497348813878022802202466965754950197823804329713854676982463892149449926813572906571342133526033205407448461845382253468814345001740092608443649107254849372371599040308994172986742605454524578714886403599310970392233962133839209930614373962346269310946708192068375887278259550133556006407706684130902159917043860708800882214339, 442),
   (27806732716287630549125907323150189466609059929430517967407972755064008847627167153606499853948747701423610804118226966864588097090265736517271675134259428895934021866162787828163672395308225190492752633700479975423103933763638070137554106820598259844451683436907396434192480090400353822198898998983250753743141110181968296779405801828075800600321109958428392011308303421472762192613195459513768795584386402882955185396873125, 448),
   (935463713089221145752887430841873935719864289308560883163820038716011144880875974628096972506342907842598091145992176417585776215343564142433139117393975367427374002347603947305772492731366336138743907893362892528675222497546328401252866678079427357223491548107551309022475804550454675927257696674718210591503898682408452736364231150042349252889313903881629898289230638840346876096160324613548812574249555140271579710336635194, 448),
   (20048654288443381625919779179991286605425132209119403454501148356401150379139187517750286394697047092726423389769241643109368018002081596028952877771801048233968429765503370024106007797017230362345274648898046062280057936243583048569176511017651345347849663758010232829052778145178655105805406178266923793448804740441199141977951583118042652232831520280026870640153286766881861540874113926309427301616342596478610688671145523707, 448),
   (675404800850417667233584725067832981589742016880780957644278067952960046603992453681486014149579579462355821807406351373496930427478053310836726442758450215282564029694970049954767739752046494692173101499008008405703510643228449105704569741573346551915360897733652045114227530885428276019480056999146548047065814848698902875654974890330576160586084638602536786564824521242730444541427754370982242678608178811276080550863050610302, 448),
   (1449517705054456491554000034713370021572237058719332869760433026167803172411763257533345706336596504804120411080316170796807307701550499392893293062901215787315917472045893652742864363724345755197563357115328730302848188790411054411551461746576192268649530689704139833540515859896416764149730866688698590266348582733898697965005899459434483756433718916245942747283082633245558589405198436872171593906861569725403552790923821364050, 449),
   (4889930758157023910771153409491110786709732202216854133344573211979430737412905364653958742442956155307456149885621983944117776294941105970457899445571179558645763574991583161672518435804816621571333254852817980857293417056973971525301084928991029035867212899591640806627007323610500718381035612673821007860756499504580056819742018205993371402643252783482366334729329533797368418479936941645911436993123214593638823188248486418588, 450),
   (105090033616448095637665002516719326563987186757151633057631394397165729999852836171167563709403246598298729803322922382768529808362411205984763747060338144580404016723327289823857666370015067251823343390861332946956493687304801444837480976626773939477090975003550137931687399842490215400855487834930647794310272248207655602462927710809000072341444621427830849178023490910302997731876886673232440558247463805091757577341977048, 456),
   (3550089730421999359219857375290546431151265578809436100808160151897066715361769294738774047013586168753213164816961560343429505590127242934552434997484676359576824355443889375374248384394296867260787943023145854102395020783363103327368587658447487080039596565103531225611207316941223521544631854801194051706909218640325121251132705217551187638319001520808197959013493241536889471816434219634931703257007453794981785634668401139, 456),
   (76400454439157765528582456829654950412018684772449237232898023726739485709893011896438818816736160276963176567015764572272721170679472946750923244112865831109953720157858939701944523451000953892075570645156189052437370910670590650396848670007664653999845138827580950276336739685490386596421939655994580946463567924446965622990548445758143052592230239778033027352423077891790279351074496611439984285845906186301707758727617314545, 456),
   (2584465323747215533512056169211517801878121341373269481388340590581064568783368046569827506225890730852339183986748015930016680069612632856354172678168844389771928130763151465272452823839048119365853622520850181786543575130288339222324331815349770594268826299395370732244958926733210723684491990295269269642629911170156688270824609398377264600696233107148368114161823079838855535482364111894230279971101426362746739942038596029843, 456),
   (5569593128614601107033661102881845885036162119911549394278265929679308508251200567250389891740066084190615571735449237318681373342533577818142304495827919087915626199507916704271755759577969538732309100031886181922684339387886058413930268043558753276588710620530651275144948323072249182879159400922004950997194101692183793916010981695768628533973584479818607693991642378311511364693330802973974854438166560981394495611243302230379, 457),
   (18866596863354673394638010035244079953710285792024867214134886311241771352118586739959740795449002335222076043103260516289121764508172219851385460550632564045335075354571005696488905614025051271370731444402206327041768098451104876322967622252053325338162431985586206345388200165152438282896791529155465668391198351542143824377019648608154031585082501682183087233381308482823645409021258016827881043789040412448051201576881751, 464),
   (407137257701727340924160626620662934196143450965534260721741239459557451953162761466003501086198830754333998293861339247995608391339204538506202458645020885326632275184028711082265346025149573281331795212330879898548225209254470870058302593984144864518634746360790608213095722416581415268466552207398561917894888833698635335260402761960686745833469025474740222430789057854571480759082481697397561859429975607739937629181885393, 464),
   (13810348903975620924875023345798666526115929199762202800746736779828976629750805493650530262268669709382559663551586697923637131619982064931214157123063036881185275159545976169829878909466337530643375417302415031394574248066208769468412299488503034147534900213449103044824162520891584823080451399341800869262357193328849279443978382781168751120280391231358019854835117809426908439403560868318008924053577581911973479554277441745, 464),
   (298431609895366140897409739312945930765773149557736613109036328523855612281668304154580566296183742942926820749400361668780780950851636926725046402186800308944421457709893045223300498636434637215216205890638534965635849078383527147752735801390378185692159269082459515820199164531354177391785982768023145885816953515101099700745875224517183384695932795672984583041768379407400895396407459084192412842962172120473374282190321993098, 464),
   (1013679609551810575885826713581622123016909203262545685574810479639446884623709123233948921250520356668679879304686463627594965460906683565951119132832826907078999196710674650865513111954829174749223755629997263304361749808059723678981462782456122706429061675667164163490093529033442326014105132711688183803857017990337537111188013296137786332228580716381678657344897647211935079452221367734541855025532594512338853399283964224088, 465),
   (2193472332730941135595961583950152591128432649249364106351417014650338750270262035536167162276950510630512132508092658265538739988759531411429091056072982270741497714167713882391258664977794583531839113296193231997423490726118924535982608140219279664837370627756077441278463859305453203829626973344970122260754608335993082800482182900201297877515106048196436685356997588644396581163594824268814234395771965085479300974098866649277, 466),
   (74606819263013258385196846119607388254044517360123362458306051301463290708304991470018640604038298250814839116824923722990989457922731910454002368176496060361014340877905654303701765039875427261542868414367798579201024785873195662773035660788770631193178939329103282432870883736861355194638137767580250327963876524088842731383437778595741074052023540725691549180584466834798421847683492665262280529879198956108139610187299766, 472),
   (1616589109222703616934223687371262459661654862496781346380994339797299658949183120190155198598112526334687441658464289141702051371715774650223240108325787933536483815341605131322357636088634608062965426499294411982101112665149647383019182199341609112985142152656229074222227864308119011222435079355242980106176146343626902023955368797448356535728633157520773837108107222830920280317569385486116090749683938267998244817910864720, 472),
   (55059832616103784688275272436270252531484853811771041494229865860479908542729083704873756765780264109101351268216793707567350219946976149915053747714254092546428583567894372876131902599428065319018636889803435351450356291974418399126500317662112725820566057224878222435458712197803680133642945672474224742037340874777565935760977080603656912650393373055560363295271336524081235323590417586963563031050848829607807032318227227966, 472),
   (1194659351715577972914391304967362957689962943385121414975554817110204447963446325820524691764005156961334019385605109675717815963697957466514974440052757282883461539537446192047222293069500975358531450182978570454772722259545589416051175645313449134496020050812953285850226391723699949293379523643524562298464172147940280595703017541314335479903459903407851865622891237672050087154683775874239791064016430380050702920436129028461, 472),
   (4074427613591680066932370160283998687329879182071057070573010073675513232161952194160658000667739544073499993848042734359983916276076235093713977330854802848435715184024183592833760792357676833607379129845454216007326365606106961535361023506996341710721888234640988460223944702637472329889577979763092630910763224733539879246312303964670611536129109606111466883850078902782011413945690901435303664297762813390977720391548814869555, 473),
   (8852425796212432779295639569808159516482625410483749684968861194786614959409137274330087965971278213083485083647333862697069016291001864826875960600790931466166450007972476283069917191645002227406718045855871207069865871943232817572939211531772658086615508576523983848150177562672616624263942270198517006631619515616237479214159359981139225906084637884252182324265624071149891145816206779228116851784361749116175708640431716100903, 474),
   (302322528928502660966381865893072702599877035309672434636517347466723081826416852806720823649546274170253699543524770889510806587684856643953577117949426371353930066654594422588265050792939621053667531434532702827743616327973136545923787944219128554935564107010361343748616696935700446877806686098421473213578631275228659040076372954178559375980779932773470842781675854586425246914770264886499531890894000753610546853052922063, 480),
   (6577352366585837555016660200367462520746590679989426015931863867726454914840988994827255358716659712321029417149969059983922279104214385566368838726387662079361672355923549878320948473392236654963191508070912306852910342853821983456693834168107084958355322872357319999175581929065754151828109106757498135927293300102864447056120404465986444848220885947999371466929358684864369121341441636966490820875780779593318551519840765062, 480),
   (224927961522805979758988108224446090734308514270396291369568906515241972878854138488200292795262427982668752460382429541796040101237533343101461375754373220287323969591018250405669197789947078063928643387292330903841250548012013590167298230499031644872059695615708839748970822520161132477088174457225576070902501668770122325816821477908848175729700269983462307029566835812300383704589077075555651726825136560686246858671374015110, 480),
   (4900127513106448978487411849273759577956210056592122381869238581456208911556536801146305242243911485679166915776726949688022097932639717246944784851158808249124445905163044659349106612677216307947577673512829668605418205426097377675236906455239778293974715539906203399385808537153986843111941284534336111265833508576634013056809701327159901411924560031259531742862372220223954995399374019540035661552456680797022320882281369971913, 480),
   (1677962592960132609002051287354367836877941516457156333616984042603705117676251873121974184252657712750708893354452924381798459155231998739536901863127624223343436813148996148026292215513005202356907679669200788542655729088169621382648044799522776070745565329293187944527322336000402048279077781450902797488932662449025112550593488225200007390943564014076628810440568595159760862436234514983645161882115518742719401565688450152727, 482),
   (36603952522905173869300966514074984047332889122743154192563212203477880569327329904562900159562018798023376860852150314169525071556818687834677542838156297620959610911567943605337826396698805820368405221140837624482473994532947411234019691220641143855991125083099339393411989772540281718046201395471490751155776309067456077534368468913884463547076463433508702119181920485072943815633323925964066391796851405553756736990641833, 488),
   (1255116019534179191533534362941067141984700254309952937545504063867571428021836401095236689820987969137530252229130787437585247448113535057173602593619462919060890736235449118723666577203727891362966944392562189829906485357950876794220737510043036500917682866311304582506437107328300732112750180525275292521721631511870784187843929192449605528425785882529318350209545309179501125102303417207766581087822408019554112371134960714, 488),
   (27416360439655975228106423919042163051452333952934622490229845940404932546426170098517612219511952079719509268778260585312974278596057197188173479585779066918098748572764389760398031971127405559455935510634487380737373021905177611014280748724260216748137352687241405205665580339632671006816604845208146572615676455491524602073241983216499463196760271111698017887267258443319634917909359620547085727455841702759763796005990733433, 488),
   (941337014650634393650150772205800356488525190732464703159128047900678571016377300821427517365740976853147689171848090578188935586085151292880201945214597189295668052176586839042749932902795918522225208294421642372429864018463157595665553132532277375688262149733478436879827830496225549084562635393956469391291223633903088140882946894337204146319339411896988762657158981884625843826727562905824935815866806014665584278351220535679, 488),
   (2058968669018163739630792436320066445164070279865390149016261430124410434236605374398672677685347601186935146085247369957004368322563895508831828316892007925549216017814605671005892201031668157515140756848650002293376713945078838587172484229191942277785115186811829530945485083506413592611927023875131807603437301807413497615700472939559109686076696360488521143333771109093304582334992907503086138131933711877258261080049904080890, 489),
   (7078854350172770640249133806987618680793709434308134567756642920213102854043157302177134930590372145935670622572297641147980795607360337722459118628013770863503423752367933029601479495429025307287133566374050750640672577418842945119404959556642725865175731365995757845336305285331616129115911018162552649822510001726951222819439760645415775180321432377465355495181835543772386345576991273051803517335318381230285193773201178428310, 490),
   (155040340777067729594198670454901003320854492073863878220924485688368105698016384692220052629706674369376216500219126957762428934689061331815036672261968196793855966141439807026743682737684612260890098990703345172691266560064436545614088062458153253517219173566930763680195026788032943523678104897797425112538828826098236370462245612348800959361575235944785642093032964514725835049824965934982386201334608504357547059327757777, 496),
   (5337456180030269062747846890468664485318456913468333464088508761840679551948540605841559737665140598035495649419512421425577519887949694642734175445522383231081581509285421504319515539553485081694498709046034265983067123373807580620031339505708615302342501449960801415383574185140038561353396907694564697966172541302121222005857579526643494485962360012608878043367104000004379304565051419881059852070830059447635036104993688534, 496),
   (117055457286686135843619996193450257507245141515767228056797986694717919802002370442626139735428539148879043457665440853110633845690241305520352687557785988579361254436787054305191480466951882256972024737981025605381906252848649591938636487155905706405500476043032726578547245224964872360376969197837055959966815763704168459698995437323344724317989303138313159780239888208618005462617849280911701582007629420789948029792457121854, 496),
   (4035116872102883411437372249194310350900753426582060098850912623951553741273096698016219161674846292114834710961151390597736605035289969149907036636814921722697675621019778657265553747902434721761041024038801905083198745270598530948743692666315713168570931096170365870029982083965869152383168062217090911662426441224403643836428330122142481831387544169532311800785530624003310754251178873430081248165547524942412087295375228532419, 496),
   (8861098116602140483362033711844184493298457212743579163899607592790146529011579442506798777971940413570143589745273872580474982118751266827890698448124399335457646960864780010902995071348257486852782272665163638327410303340642774109754782077702061974896386036457577401996026463529840837680536568276265136169487953312405552399213954605377195630871790247570306195364159537392383013520171190565015809757977547153799065855289004124402, 497),
   (30586185890539856258695281648892872459827710973492015549289917689552777358850072970962941245495334894230447109085527540730843466167497966156295337707057106658048381207329922222072897409100455190948690962214118440530646489151136864591477190410673105817767657708971373294827264196461288175064413911605549110401192424480979620280126742325840012281917584805054923449954322129945095517223935860600015861094850239063483621698944232, 504),
   (672557347050102462687178358728973603041352902447237658539980216292772121551978879686266027248070277389973898461666286928858051142813221152236904012212641909561235404329636802827537325915332743252126174495285920149050442023554786554930387959697586503894635700167130124811498408581914919579952725532168523835264135656411581427100339154548129148383168879790586240228139708888081870726180993363884699960630495828973349098416435413, 504),
   (23245501276810290756608414053158583069469060339853931817460337444060110792726055457931835346576454519615139802905000930955441034287298454278784456657363401060116769717570740888775402030916345945121005131282730014803291331754864017089522664712111560421503419858818243704068720789310579013048954572820217323904906242605544511412896324167638409334257364451841741821965284818758272593090191254056012054432086181688247552491197616529, 504),
   (511816141105127974104942730992748911914469558762347858148924944598799584501055927441248446735781481093770136729328044352860976919680861296852283953293820493176100142694853606951755905021568217614868018790912585233427386379925192568302025237329863329463817767827186024981550288930837253800344024129980246638636007234529213466023358096611126281919591517520636128813614318463830303622623735949916256670039807325848718663894907349325, 504),
   (1771307197292944155653561150850684029893542397896869604490477713237380442405725425894405853409125834394673652981361070938804606812692142216043375597291091160780897852478890455724685634755825561018220591003744027128010799479720638102221627051062900904118560593241950170250036524145466120794330338448900560081553855686542491769662699901574046791270411171230340726833754703189380371593472573559068118547724967044644463499829258379553, 505),
   (3905157156632126442420713037474674197907402733356714157676297327288840829743056726376725648594012700745466143244772978412329253897164971694982926563631850362933644088761733021041897555314565500401442983374663025331050958078829219296144452560826857203808929568521429370609228704542288246496624904111749281852792735199457898745758222277142893531046483278682453662847877249879025216640619105297861038392403729896225723405518143075350, 506),
   (135327869873180933491932071924992259883866639199320837783072497291335865799797422538332607200457213747753067087775985819724671960489679665305713895633039364683660595929387230817365982495345072861792053152686043672580025080250656751009732306701205629074658029323684993007102790444713611628686837857496002790230714574451846371202230272480257174853059413481998031530098859323668660389741304619912804257046187482210837011386955340, 512),
   (2987445224823576728451845473668125761399163091017886330622367455375963234753438395678195121174419716070281599582251328485431879231331203346661938821178365527644237727902725761097051629815642607807103882281617214378253982930304352761550506209032545760913831119918893468516059958974850508569918051645488200617386442427585292540505040042014313551250559708192077052078626096157454290730073615552863694370188853370612678405221379452, 512),
   (103661148322856595054819967094544071071041845626679761741833532925163273202644825664362777115550225730778849389236405137909098721735094623624176844054908153347684016481910618806102342591434325812132712714957509453196299211472003071273454946933123511871188050461942704643440737480650626507574117798841938137316727364030114320340908388719876995937443510727210492152055726241930193858541839338853208060897379611373501150722407790591, 512),
   (2291370487439683350722565478303452458993158090810718815587355838273363801055887249485175657940779922225905986879586768948326251370431032966889707075843806359703130337301390658761438600068597880188048677710000403428120804907543438568109238262327962598620908468977791290351817988533710340073127145612089449873535401341957919378567365712224978493809179296183323098944306215752767440989966463129046453581934850535259924336804798040177, 512),
   (7961176191195386500210173472860984658256013744129005701772815328652539381963122611023061282474257336123815633093355914591418781829255267094336781623416946177102132465810735524308659911022156222371792336508736726005475779441049835873801339924463885711707242275477199716616248638513968115781692246951060848945924661557512779802181764253686553287995661623849765797277879775380238888336013261223926379076918754153484888375480918317429, 513),
   (17620639048411164967056528528153549409657385718334427691866766396322167630119772948541000809564597601917217039104022253212628873038614643515381847413238870906117072293847694165875462834527517698646094331589903102362248989739009042588760042237302032383394786126439215022805480331824232515162347749756967869527487236319656400021183042327010084617392588787649754630881714799138781621212842101462367228045079000616148818150028896, 520),
   (613010566722044760516183357410295818685713058297933439036506780306245532411160441048775718750517814881533803748188405423539246200852655566263932185003104855636864199867426635371766813148706029122628009911172727902421635016960837362282703174183719199801457655211744378179451145165575544915190303015231685368836198939928484044767995847533864603175665945036431966390396742704278394401873021114242331188922744069818336404912030710, 520),
   (13585512706325008189600583495206386594845844388835843750429276891564391242822344943325111624174304751078174337149201157226936861112771890150359404355607169468616262738556572201889981845420716145656138729655815291921293971088775971835933992564959866967597380103484634782583025335836483269190170115062622227405692659202455084416332125634124775240009685955277960820409802110136000629955101260227485132822755909475050738793672279532, 520),
   (473244157509418555118493551920748372025370481006004614936183234396421551021415860489654854875399753088544096493601448986972298067058250097155755646822396948551659162297653362507003979750801054482668823651425345940669502233093766443682246850469831222246725309823466659954536284067824320674526913927758861104741545581624789682560892794296143473651614109568125478053386285367702920478245972300195079677848358421899755704592087708461, 520),
   (1050160132198923133056125104179453683781583771257010721908183103717927443070167264119031128548673757258342876261633249453642219364017267108622781956688434199924037109690423031206095596651021358059219523802394522065516023965162382622917697625271397716595277481999362268693667858460160156708400149894340698178460042556349778025382473311517845126052748724342986371417677703113512848695529327415584600767199031802421422108750867207841, 521),
   (3662909779122899616617140091866592399476367522986475719606058234228302804905758760189928576735594088905331306860475215159165587039030855751985548706405352381789841916183837025804210803271200161695856695062032177580781947284145752274100590622636493660189653898033631948048110838684960242020838313800853584950699562801775872143021310227852150486063493208057291200133209848746020604501623825603509916706546294185504109153542758863490, 522),
   (81387410245416542811849695573907660493072742272418330947884190538139376837937962969224912462522216187521572910276576832657272000711338200918265601643353650494112876001007784918472408740454155249589513094685575460077491857300084653276121565958533323036134004854950575823759259030662412144901011616811404108830653298117107796967141681642632997269088026136581443784870021991297245773903522874707806559457924964687660213428192208, 528),
   (2842417988599370102494900711288475701993661197837505158414301189761162976606868797907384575546821012990537094123728766963512495542287944063540785796170553448268917326958657532024067583338451325475984795368136969802686791092497103764702058323165919080307171424874098391685334010819529147808170531509462381921742860734178076782984536736813268777185270729452457971303370842626911989093260088668323695364279924287951188703149180878, 528),
   (63238017760688653764807213460926252203117520745669043146506016048134295803077797227087756983379761977704262151284900198974700344552709782113492372476885786433925704652783048881653061591332878628931051674570692132480211173122165775595546456749780391999076121772296597415060944266824694236588086026262460992561417612636992758243469086636325838878081396308123781820844007087237959966323037273647965696698807697562311985833705346088, 528),
   (2211401195130309939741032753382434096151068411917579013246326325634184795800143924771945199775426748106637859228260980697612721531900020481434731349420690582753217680373835559914724579837315131220316170796410562506490323469962746728938201375423085044478979368552048548731189860417593676994756673514361733135115945651190543737161969581240723108650140627514012301674022515563737527514556348983955834993409781096026024811050062723137, 528),
   (4926241583557646128278481928606155046622854866087618461112818650149661643059760403990136269005283458063162021585093725500129156840656092026641055815949402763202812392451799507880773497964831245193728925449056917120208450386216713918893068980807892536728029886061904938633247558385643681030211901445845711320534432024421735867166241848969782848602540772402842603843748152095837081376564603617176527772837119640104103696445646460270, 529),
   (17248929322016417529980055476382985949978333612957116303321345339946641407241122613221172558248328635231775301980435649441379227948820159755190904525481386545475097906915917367334851722731058023518466132212002387550624523065709424485717970728300063346936039074705978680103280911257230680559102053412021518453904376079286241149863362733677640247471096894609295953057375621397152714613539522074855512948596292549002993526190489, 536),
   (384739467675852162618549438624140709141244965041443001812911136576688574322967287551629642609312638074732953885795819961560087149255240787280666459225648355806139647850485541565488410191053320249630229077571345227088279975163525357065548687401096407118459134101434775707256634309918771488459549502920550054133739141107337571225683488404540040475858434324662007360196730678684876055509695542501486819058579043892130498692404988, 536),
   (13488662729816838508444403382531495012883056885332464949197292055838273580462557883538956940550192992751248286148700677863158556255977364928559287338926444278561526563208247381255854047175687374391440515389785867064588377037384769947831453109530649537303982556420075327840765672603154392197217805768200827430953222094001840579193149657735914673522397771584469435290867735932573422827787906262537011125802300773320340937480962586, 536),
   (301251003190192243330324210442702175257594807627449870419509419939547153694883386152926010163091795612515902892578127029901548237866853536440761837573682662596207344266930179045777425179594749755460469367738363312810123220553040354582324622235058486773753502001423429378781944664666398075463827260786790692386717747487045318269710171420754851692597154076210351763034040121410257951464091609778664179322867391367538180476153106032, 536),
   (1057511158017640139062041225190469209010031659810065252017067697177720648708264538069454224139135130631697865634058133144471630810468625410399048127371833231439223682555526594690458957298573890152288936406559211977863728759730965963909985923787202923724632232423333905702716028732087304348261875972226944870586732612169744301408742933166495710404155985292222403726804030497113756349698571850982901672262900380628314729498507466746, 537),
   (2364820375043009110143045051975212075772119239875481482793148946525445156504834581300469179780270595558249837706738297184727153667254800261059980424953408901380227652495401905509352787659818785580364684536746152005559467281341366783471248284545209121173964990711173920623438265617631224892391043997176306935235734317773305748417224845652925585786887659498251261339817214953070524918993119136762513807684509022235174716737801882354, 538),
   (83120377020186514930276440299970879828188488461071128808541520998168842988469592692259102017336021267651452238836969265155470181702833957257365182811426091991122981448864390342670074043667907765969910401555554061460089080514853924763324893609674149804756093468474044988233479858342062121773383451417037866828117183316541902090727194546886562837766660443968680932926796797073141249086307747487256071439863969917385537738582686, 544),
   (1861113635158848169682576455904491903632657841782003926958208220915525338169304815483469244487072958704342622275203039884380269936129527805454204594438332805386239162513881299635860643888277384251747006730419221628375300750415655658591872399937079578363910447689693875530645915041075773990311751625777753558030522908087591624004355953528852436014280588025123742674436148168066503111247584760632098366647708600499082502072650081, 544),
   (65498857091906973765057834956377053304612528907324049501130718546557048274914039041500172389660784758909344364203531780942510503181833158318803764055403760489004909381705139590024018346410311319584289396425776600430550195445704892713500016164423230046147801653157547450727982128373544951957426159716625839060556340453435018847493029302946611516160128429847320575146315876093635304280010505019957784294612808294899803738003157266, 544),
   (1468418658140331205879552823708644111966167037166001098370026286302349491815581499416457233900300564417726328975135198468776032979606197438503367425011844583449742699223452345412694048027850856174628388310300765864788112292077952314628987323550355787329125343227168467793679626967408785678355972032738647557286082574481109791339436847334264572015267383951822632970130120904604470954774344376138725611285042085793776094135320914234, 544),
   (5174409710260650927439568961553787211064389783678599910589326765178006813718209084278513618783201995953838204772079010694458329751364819507185497360376897078631387841154706027611897449366414594247158862317636351434013465440210686524366501276989435173645676330599446248607510588141510051204636666617613441285783950895821366488951949314932782309776650145957938325436558954211397189038120829896576664959274411855297084495302249424042, 545),
   (11615191585890019838507262835535374925652381263983068688106907924651584480261249660384176720151377464544215262193319419888018420868685021738561636331843690655087464750857508052214409919900300272341310551534479057990473968230336602808715289729283314277773381464926902580248005849312203494715795738778962702178132913164145578449494945462414032764640765007058917026793729256355421365252265064015257319585264682898628768904610388, 552),
   (409813249052643553453213861755059947116299670867345112918674679802098139646482159474858278607629598079543985817948657647001099716308093704969091390941850248627605917019452717386862277989820035864374981895556799033573866462864686372729826901137563265752737565383476142889714838580807596055407223996114984549834088910949052225924994385742676358934310691559868715374575469173542657371819169727808871864774533418939529092027938154, 552),
   (9210846927610785731936259428579552316042338342338573469668777984248706492847170980684652139080042329383562702919302299971198607748867222238679377611152046689484359547430003885406027066480938115966659267366841892986445856806656926027311224755321668222274291501687033746136668638504577371309626020851717422827259400139167443710449491751694327982360126650597721202247427300289849142645046195764099054431114893538612613741356038026, 552),
   (325391719747798981441851806233517598010341938668672019657427695762865922879306834623037473214457900875157924739451234171718873174748626401745458564407829097410319098113445457605168648723917108476313735625072098432657649971514560979947482559503225233007673626914480057454433581833161231267993335852915297732568266595293547467384445542279685028993842689098535760007412922523792869953224420763880244260630979534637986099070182894581, 552),
   (7322623307450574656889326245720744091253658982159165908386678497477721661813500929644298450568633651859932348820845328477102893160349441679750105200865877118140065840206853088897791517852345802193494117556639304924224456161292256191712423680480726236708061743841191828178651567611139010191152686577115351147671223110638117749807345942596990745976300687225188355786704703730430068402811725632458748272736340363197027924378050230872, 552),
   (2590118089192479892277140377618800080162321831802629276473124458272412746119282403599378286787084890966257080926031824006882230470999066157893850172686319615386140020983025842537142443842380183471457335575573903523954893773255905400381961173645672854741082070239261257337291311391963400893226953389205769951243402098536637840380186516546292830790987805224344649659006863289391244827666389280486744314622597095718369348598655840865, 554),
   (58361307760381080015407930178394330407291662087808552289841827624897441644653602409265058651032010205323660820102137267962510058487985050187608338450901040631576324746448619118515398397283196043482148116926415260246068915605499281847948016733431388106563252098414298870583852993860777911223486912019609348646939648191785798465964547162498016245431116477184751195620036488731527645170409453290696223733708632694680312557293060, 560),
   (2066914235175598954037158021339802463969532821778498162625553317701385371403187358072303872856093742991073150578973395557492019915857254793999292437803683053078139736744454622344639670186219386410222953789307975012116005231058212509504805016569246938083383492050930483355158466490786793912795108804586204421092234874632236996623388840203941678971208268569027030427887476904934213372477778645828421963068832482383258740181727361, 560),
   (46630684900544482932310936212537069995426038008159033279583620272293055874078228325002781862174576154053604995261607677102045536731900055099899062422269931464629483472412446675693803319429273638742236345424205792936609063568793926196510465370011679097144038426633024797596498542094761551067566042703667869568904778905236852974305673182835914980099462065270616205300409154496490588491157153179266282763233197523049569733277155211, 560),
   (1653531388140479163229726417071841971175626257422798530100442654161108297122549886457843098284874994392858520463178716445993615932685803835199433950242946442462511789395563697875711736148975509128178363031446380009692804184846570007603844013255397550466706793640744386684126773192629435130236087043668963536873787899705789597298711072163153343176966614855221624342309981523947370697982222916662737570455065985906606992145381888808, 560),
   (3735117860533613082878105990624219306633625644453538565694647983810673775513666088832722827160183549939693760120454774935873847492225194413501914900023821510316821626140236978723073645886284818463253131268478884014222385991860393488340488276137935495681237477973305286287479533221790400240512040020563796352469272790309471923241884421945156789905966911428176358044562773275168896138141687969659229249334979121596270535635500132458, 561),
   (13261321732886642889102405864916172608828522584530844211405550086372088542922850089391901648244697455030725334114693305896868799780140146758299460280948430468549344550952420856963208123914783583207990471512199967677736289562469491460982828986308288354742988484998769981206696721004888069744493418090225087565727778955640432570335662798748489812279272251138877427225326051822057912997817427791635155315049629206970988077005962, 568),
   (299929964200849130555111911047124810322680139249619146825280233099997104173747386933267643020962739060157408937672518427350669953625683111404203766471912867278440776579061029391462813764668670922599226440858854386342057595146389597113741208573876220303203369481256414488884606517709769139313116813651272847103282605061850595436323319082196090229449142987682561550978390693996062359892777543963636108721598823464180524011530660, 568),
   (10662102673240860882838334315392602777498132157962798745970062269443159188509971471871088925188736753844703168628213417941082515023232677993672766065882538096713673018965746368998419331627486000899224339095808774012899976808225471134630194504991863837213362741939011064890184163687930008074572708144540970402845134280334907786549872890193785809072534889915657451489162145664934562050245211944474664873299901882404674413912794049, 568),
   (241443621181683550096865088392935472309757512095943413194350587645497668859866646481280452631875004943426714194826377334017289312668674904680384032009889858159144825146144128660127565080558280092692377284891377781005356364092843625676561672901970357344078712432411413663552108246756364157147059034989274641918142497074789729326240271861167852634706560105084462048537604508666830199713685922890727067520887052888665321829282181812, 568),
   (8593654754632133871567697458206437838663494519318015789251870189171186305939037006328097673702121823598830753914340014860512507108725538462900249449101325705951220453286391573412725981291753716724774817311221871854397381307429729734511936771023442252793970370002842918301488435932471586508105602764500022144693178229949935675959197549496191362112463121272019905900264689405937257012497640827246579887879720917218167577613712003966, 568),
   (1948450022936186249281701263330989261539743122614263344478409242299166187699123837103933252739231289893453583552248865085519524753236206480770699138319811155344298738929383118287229450200105320348027484689073418692713225858229248059209852700318900783766715209329560108264865513551323858748176766412363446360279409951393553115662758993919624570762081940048031608731698468384941319711689445397728167434893558516811529147162307207225, 570),
   (69436730417427641682266995462308017736401035716089567577155111128503185351987419011131029203513144334678552491627867320072941057438502350780234015548738711704085861262554043913174825928837370031136180523874672724583530840964032216254856449109869413402575280589622970779876026562334370418985493270337160178929120880097995480261750316199929226205868702019877920839674138690399973036660980937884152365494068145011122794027118792, 576),
   (1576296068555374675668896322034770312585652186194939045683033077020025445848591184217082001466038113523803949093769331854185295525368091042943495602900727224673537679793870942694368625211885204161554235113460395722404999719307461679900770834557990734067272604347614127586276200463021001727275004027602028105466042650677384470571172026080976277746524289498857571463944060923417527646756761326762087454828888840100527080054306530, 576),
   (56243751638116389762636266324469494366484838930032549737495640014087580135109809399016133654845646911089627518218572529259082256525186904131989552594478356480309547622668775569671609002358269725220306224338484906912659981180866095166433723778994224856085977277594606331699581515490840039378249548973099744932587912879376339012017756121942673226753648636101115880136052339223978159695394559686163416050195197459009463161966222323, 576),
   (1278376111598408861967474917170198723506963923004095566048939825463240636583207450400053503188956910067805002715046928133744274671073521835827174933952489779210239058312829334525132955046838900575020484677016380930870454772358351422399525146826530485328558082125915057472469998575510032400820028266385244793532960589699358805633220513151671761252431198783573490457258633408891614921519733436004052925866228849321527461924042596353, 576),
   (4566992633015050848726064825546922942558568921118643038684645969143911506970916523200110052773466529180477754479348089375837479229845176615517551670671642546201135266960704576257334650991491501687888865416284974441307990471886326927514418370854331058314181354940682034134006019057856211197513863376615699288526138525805358727775841797101745066012396269251410609467047449944987026567266038246516469383275850033671568408751657252673, 577),
   (10393197787295064047795571076593715622111616694023296951977880781016146375421476571752434980926219678851254672073331525727340953075827732525274932213033741904979243544083302489689330924530800261674916540424143176967976797299273397064108139443699692845721177207683689417251181088418896563418666829805712040171422969594255787089798082771923091418982265646110452477417512689614288829311955432834712950287292440544984018265442466, 584),
   (371753200327425139086301676799519527524267510179057543348930181888314396667432604988488958295760175475290889214618934475193170809309397376503128705992671703260772410730601352507347040590707408237394153644885596919522470424411547011899673655387542548146774362292171517578508089951309495591477628478856517922086027676000556200440953522284082048373409056317064823610617662425521943962575455513266440607798654192740865668472384900, 584),
   (8470456196645477198953390427423878232020967605628987015861972836528159295968503405978234509454869038263772557739765193467782876756799602008099069753622499652558083488427891529096804703492602213265056980445676689228901089798907818607248133646615249669262759424262206875059712587061400699186213466291655312739709720219318466478185437459117319506470546501580018769095272842035645395889243677760291054484143339044161974886335610041, 584),
   (303350611467178913494422168268407934459802288306110955372727028420864547680625005670606989969340303187837365599129050531757627380396468259226553024090020109860790287156170703645995185122017245121713629374226647086330335866319822361710133702796234719287767879630411958344062601400268548402645744838746918624422198583616453859559818074183810951472701789954724896066264012539225906273461571698825415535963701821276546385473466078699, 584),
   (6920362712659354871544919979205308515561130533798882391959231807443506144806267282684217594224628004261502179673388163063178610310305274840616939988709582216139954210045587379272089442753456008237551553024117855100012190365707687802121725189284658979787674449622223016923785183629164371235136401960282390508342841419183187112677502404098850036786436491790875334350837911943122288441512084730157791513545107999080333482136193403746, 584),
   (2481408001801523512384373336435576903881182718343987614948907092482672000027512546385565177949203680076509650600875633349777391971643110360473203737056364498661264548937476355824240614298101065095617488281173973166182147386496146918788893688873200003773941255376769819254432079454196725933642192780949794347773584413982592571199311846823573583046700641829649649822039622570867913316915656496391899084183080898042149433172952523766, 586),
   (56677770616680116397952894629691476742445659071812846790146108502962315325963329045183742096699703354901702851525049055487432818441400200944652738507531478350186224980273360636238412536150804707465547219267525233269099839095145963099376929300241357044461053742406006508605800653922856200415767132054712778263327871223110302452828744689569581801280914867767268988333362498814171542335983973939992312495934434512467931218695423, 592),
   (2034754561477249280155186135877173061182569829042069844258103815835791040022560288036163445918347017662737913492718019346817461416747350495588027064386218888902236930128730611775877303724442873378406340390562657996269360856926840473406892824876024003094631829408951251788634305152441315265586598080378831365174339219465725908383435714395330338098294526300312712854072490508111688919870838327041357249030126336394562535201821069, 592),
   (46532449676294375562719326490976702405547886097958347214709955080932060882615893146095852261390456454374298041102065274555182343940389564975559898314683343725502890708804429082351736692179810664829214267018638216513930967897114835704588458955498154133502525122515331343565362336870664940541344815416919190954192182274173558313772399390136626658851631106436927839421690611526434836257842842604733688559162170734736171530548943084, 592),
   (1672568249534298908287563003691036256292072399472581411980161336617020234898544556765726352544881248518770564891014211903083953284566322107373358246925471926677638756565816562879771143661492041917050011801042504872933414624393862869140465902048091730543787363774157928970257398835306761148312183622071399382173306838400826696691184157232961537916798100618857049966047587197667808292133829104827995658702763848516330403935896919118, 592),
   (3829620608359027108811800570207382607976591025861971975770629303160708610639288005923688641112434566195004728782699972095891506906294061197488579631298439188608887905334604513477547929766398417715444334175633925219096518657932550978487630172037498085187257817583011769575429320324455724606552678308812449415530016601164483849223468469808244374023489240059759161184405137328625587024020465946369582568419046651468786916964178015884, 593),
   (13781962376162623004289519150414138751846676571654070834716529413724246735564007147749585144969821487794669454701957106081411775064826494164756471954665888675823743354102328478129314223770694425396492097240590240152971336505005430041717439032876275859680807877499061334714920966402927711862092393045868330909108048348422811980735357455599603072434416349099382091720232118508782740327182751823782684227710774111774562528431790, 600),
   (315943700189619736476973547042109065158068759633612688001076917510758460377741260488704312891775851711087890124572747697911049319769260048792807819582121233060233252190104872361897704205727869461524157569489798830575462789279435455725229489193093592027948769950598470989972918926767597280040595960477027076781226369596069917560936148759180160856937862304930130797713423829611610929481688440575490561894571348746174920649544686, 600),
   (11383900922710326601543142818242078609025354848186262509475853295736227803575869904041157329745072548918396969583816569623246126203546684180088845834554024046230412010488523322934813548834593595377502472320727538366354323953134485214458604641155803860096347306814224662474524718248818289998088316655887241330923247935797242696087405258325272137830827904356089607760911729888254543510252953006444497172089099416325788648484659046, 600),
   (261285440056815522066457123403824196885722864216997692976890610781397246732392022424158466761498629365069685133021662346172437787449178060351652066794414259740812899561216729443289401378136948044680478309968063632885907726734093121884764787562688400607113632749144935508707603952436802950593572859314501392498074207655949821822894195023841993028687612126177218169709001507088802238681356340355930694686810505413086659377173455578, 600),
   (9425869964004150426077722253504441088272993814298225357846006528869596621360820280546078269028920070504432690815400119648047792496536654501113564351010731910278781144684497311390025618435043496972572047081562401767341380233195353757571724642877005596159775570042178020528906466710021544118417126191074635822004449290840116952360371553893325330123925504806842195226034912347474762026489445089336043658489774316717753000945297690737, 600),
   (2166056298071000677930929553017702592182642544358910874778423163377783175411529865896273689452823637436427689752749580849769509257953686120315195633725694213251338937362486687084869137424755299290401165189635247516624175054625631980424700088894686841032972015490411515367186036765701096460420719003717216543809035181467824022911792876747650122207820304526009138626887622493766170558668444061550665458953659089874488406236767946748, 602),
   (78234720701234448536445094704086861032665848658675270470121854189617651957294808328532449632940036585186791333767820993078796677721254232359242584113389074855313883500881327684537212633010861024872347990776967934668933455935521436187845314535879146448126137231350077570389923673693178816182862147385919477322636929113972970704591083897314600240028581689896790220376089772484040524819862394241489162365465126828757349907845970, 608),
   (1799992783697001563360602458557710854103775954362254936940869648766937818766981318559803435935296442709671410184534901686158462193359513165981927571626051891211862656948226436967526253199971653710323368272586890686314689470393900175732925773871484764898399744872531969270131596552297611158609617492089006947905308235799761763039699880577297251554698673061113594198943614292319687734253477015148602996390490703685699865582754163, 608),
   (65091287623427061182322318793800268379177986084017825031141382685761886428469280529338998094606110438875410389694827066241558835864083521322889829982339710279621151072733264633534960910665036372693793528326437321644552635338353834908287301693851449844840946176483264538564416496512724775064141306625085005132433925022825511626219781802565747399703779965994129463352906690706721716650125512008918983088066985521526115123327847733, 608),
   (1499393988819602302279381847978573141468445369983758362471744417422859203032895438360316262134101936777156284683717573104569999007068474467262945667164501225379481593237872621993949368915576387540699365771064879941700136328838118846385527169634946809160366987478819130402019619928063910095121811370910142787605121760421201548612070000520888610545063994659907623967720030705502299882633146353618786295993278756170187988030434218401, 608),
   (5428613387793816902605681387402942382823444039407086607597191315992541328134337996146872441090149610602209226500548577324546006911064565678329011820527131837320403999465954270436815739949464033482662380262424872625155689787218709831351160961267210917059734911118704262516272335809161246240349384972532089428044989346903647669626729802333983333135295249163910397243632418004940591168620467701543843189544786592495278001285542500945, 609),
   (12519939806643679224032838430621085731261518839364382326639065885480874345324676910308640788819751172089254977109041735423159491709021761801645596320823585231918671303536236393649477230445062835964839704188391747513196138345798292367319151866451805856489064345448139738856863826399333649294267124947099692276502766699517032930910784504349419898051284355410228660130462256390944204019986772052716865571543877614021069700054125, 616),
   (453832079219563093057834963986885983204039921694432440395125194016976455032030656477878536075136507446344691335445861064332046177764997690708305388196068221599985774355353777008517795859775193199150574989938719351463015666211484141900957056361938832666193838569523676346360367273645880185693208583703682676184561109401144945180794611475121006650110682830102909209567670145213033421696671099849065290645944159132605240907471353, 616),
   (10479189618160759510515485766429848757065891268547988007396898146147491827036754573928332340242131731038706415840267932549184494560451214627977364120529340839115927881059829861484612441882517593702570832405683892668545167795433170711446130112220161501881346857140092961423195022696242264459301583580722442435432815727495756563172326630140464454668925005478361388529196908599220298764728928208124016483382225562935635338945303230, 616),
   (380311282385993871982465699821010453924985454379934385051114912586226269316841690128462213230964393240036851339103631571910254696967068064813559915308305169700788078909786465133137912930491611900888181841568646816526007128285223710913002013231304741774270436721260840778249987775315247595610908793143686082642662209678159464061505884416151403572792752211626237917617707581688522007381810381673516713561301205353123191880460993880, 616),
   (8792040089636877229322492558034643107178282774311761938205997544617745642883837087525870833463148522341474682889984795408765790936218569072873008497124116964018263492209197253785589838739432261116456928388368785948909395780368430226903303164152715500078450013140537994634060624042147259881354028624226129203328132395368939756501582042687849677467228079596345204975996206314745830663607570766616049829557687247302998049375109410554, 616),
   (3194614772042348524652711878496487812969877816791448834429365265724300662261470197079082591140100903216309551248470505204046139454523371744433903288589763425486619862842206307118358468616129539967460727469176633258818459877595879171669216911142959830903871668458591062537299897312648079803131633862406963094198362561296539498116649429095671790011459118577660398507988743686183584862007207206057540393914930124966234811795872348594, 618),
   (73941057153846137498602162413071348531369358131961917900312439350235240856653069906092573709425079072891802083104772129387720301773598165902862001460813823667393595969479348904336810543798625315989402767746181489830328018512898498208256779610524337355659764610511924534872449848194458455602187380729741746599989593445052783352178304979004815787499388149405263173848128095107012435880939670147240979066580149749818213595244670, 624),
   (2689865638059657457757583401694042738520637121738399918589525553739861157624157905940587541739964960508132642151212165381806849420708679008813346568992580804259733924513137710593657830574781072652601932529046725203925143216935730262545480639182372177621059944842133674656406513537249683194236835712146662925315021276611686257414218819298555647189648577842390055543726522183766578453810068467500449011676371165221569711532124517, 624),
   (62332311180692293911321622914219146811944368905243896789963386372248308042158537930836039637045341658447789156057322905073848214395143253856112667231466053351612801402271091126355931288422241141379066533210030995926966519606373433989560465211672016390821181566661552382897475222027928478072643961955172292383791227274179496365886311097301059708861984209948636855553971984175211483447632141934124145353127066239096754060791256930, 624),
   (2270246598522350894347400391029772071311417730747209531289559567356442817034789272613855885228530426668863949975623067582244980911078125083438464504229738198795215432289088227741047209005115225318796031054515436072112820875093756341588385659469922117912174593446760821410007097425438732615935889341051783508965877957460263201257600683487980966228063399698977206878905184723098992215015697786570378965854857263447004836533113092783, 624),
   (5267080294768498835506677136251517905609299172493109278751906148454982029562396455155645349330331370138838183686843785478740174116389604950841520381058881508211281718491907200177076193871679376446531122056247619155828670906738555172117859310386285385024389842382901176354836656261359956397138414785212058706430358704668167442917393287721939545398837665740659814294310632662805370351324915993433490282339237097203675718136861210614, 625),
   (19206286223499088566179007308111871723294594002121392634709673939835506232114317246313220789033367409618589016793771151745792538507720938205889409705783585161807522557165686406689259388183274806197014422721200589170074464603293178649837742679115541117536997060559596549128660044219211677930817623825298088485851327520113826682639301782308318974289416361453347170195537862757417474139032803274385406051132092448761660917070136, 632),
   (446121700966891851367415553440503566605107639910166355910286450774136977903934979751683161088279067050759594158275668630049292747658199539336276776275687263745495561556264539854998353620931243185021186038164173342498688425800755623078382683589718372111565819649831729637254664785337188306837623732307461372434651382285393782415103211470048279495281550288233886270728110586539614868757220384643816626914133382133151333326192144, 632),
   (16286930717527227104119798197278867221353815713798940954233803500980509284832941024873611229100295563356563486241117936680432072654547355598594219430504480217212779128476502072872491961179417035655068230467578099616223145983592615495062405791889978867671373507354537873661103717497891502885333345003852779036001925737056525026878127911397454490197425074512438400325816107618290018069899817176678824331360014396549888457675475976, 632),
   (378757324120891181810935804870987528047736386283731236167833196707242294240440797809179003763948927926094895440376042666911849542761811408896498983058058486919925731761268594336893602224170625464082986946401383167781386473504841523993546898367670897922719380882707138462029210402751272872505142548729034705197019023560299321270422626538070989291494036194710569443848165887972133023574880106562600316250099241431045481993937130713, 632),
   (1384389110989814303850182846768703713815074335672909981109873297583343289210799987114256954473525122885307896330495024617836726175636525225880508651592880818463086225920502676194161816700250448030680799589744138467378967408605372317080304492310648203752066748125135719261193815987320777745253334325327486218060163687649804627284640872468783631666781131333557264027694369147554651535941484460017700068165601223706740518902415458018, 633),
   (3223224828268783957211063699452103863686236647274552819788260503978631923986151189356113322031205376651067560197600123095419839608903015089709206345824077723688567977288395737806964554927692022699346218913875770757819598889526201369185084105108879341322341931311837748311868580527413332145018763089684085341226631890498147224011296551838984118870614248016986945967147891706642852030622229706847728691288344544578197051768404982373, 634),
   (117949952256332178688035578544693556417044333399331930390561204954100848240760158902134692521144340469828232767358176097439689070164231949245019337115713445733054946448426828011742586782861338172214004125046200597420688023213177721415241942744867226959676086940261563281053713122119730263895584084517901825778725946187763354244651402334340365418009752389619078895159560251371656310862214475993508045807709224259814292210485797, 640),
   (2749410778513272715501037335632644595724359860125193555279386209893773031160186964520764663692618186283360628848552905000393123186394271871521953012987938298306348484627001564349340765353321295362542324733536032456420117852765849767914876741657874078147957667408997599310023899189883572319701004915500524796066317002594919582081635958718653453396633953558489864909977151625766352782120761939941112573668957896525202085158449449, 640),
   (100729259226907680599582384077168297180155860723029468553539269030802124397609175702423027413057266761233310783323882387213494465920254084655246513896819282656028924266956511122028169112563582799070759522789455310197267571824053774088616619104116611823563378246983375042019871006290249645366828808178288159215031958044349904524932297593526672066980328540734693376466264454671394489476331162498455871119783677517881405547754870657, 640),
   (2350746215628848171753386921965911129344327680407040489763875209459175941641959854665253787457188549272273337665512733775336120324367102450151269826104687245051927954356086337518686354377089707534973687647173307750239200764114801551567219614117482336816503805634692947410070433807350454333344359202752948700636701037218656242679798744704448702654122030292508834498030464640030231628713251458649651250486959001529047782810474279719, 640),
   (8622424589823297459324252077005606238621341677891322508182961429036661848435345440127411146557702034761571403052524332345475126282773749646489101589567730595356075917251477352045611276035442687600457015150777374552886104148139003061985582595312381972097025177941776903596900958138445369643400545980061466428806735608596351827334204674005883128933516123086889753025512237319871368299173947509867822567853482795530648314887816928301, 641),
   (20145895067939228831926525921247858378480888221088336997276410545065137819871595954481224958508105867263382503793444128454630551179826067997796382409717169690095022568831659912535142057011658793574724503136275247419549950548463849296931072092986823626517437614289318559304303617728993393636761158367592770364456527888963883999765875242117125381745825799606800711648121081965059085058072565000627511216673238643103939498685764, 648),
   (739804029806838922010020828207081015273711115963075471202098090611345586595752638762931876374650834582542826381906587715241765835061987719668764916384911285081551313700176756805513447483840982596119211899936698736637627735910326462718362986677802373205924760267404458328614102208278612715403766845089273819591617915217566986785274761029704772462495683360855140809588949962044963400069124696346659176321828823856529625417374692, 648),
   (17305323863359797566624885766351910347115082981914881480660436658210953387269700924899372239358462939979245570758568506342527643463470592410107092489947048763791624386626395864867687026973014903680688348194060437533393407521130446546063790927875681495178478910674524642442396807629205325133977835037762189743068157456619976355798886832978610702919664361862241811305736009407985754064884333335539032135122311994426284029371071771, 648),
   (636231465633881472928617912258089673135391559728244905233804357925757204472347269336121413682199717740986830688439665435107918618153309438915137828091023705170134129782152010852741564836103245032662522233945560913508359852882880757937792168542910040957095293829967834162608127899119606935247239486776775484848791407087107608635336294485546104317746287690335421096246496967358668524059447238858126891636772788516615477858942235505, 648),
   (1489988384635278570486402664482899480886608644742871295484863596271963086643921249633835949808763659132213043642312748396091630102204818006510220663384440898562458859688532683965107853022376583206907266779508603671625172387569331447616092398890096176734867034209076571714290365136874578494035491596751324536878168357014979964234284156319458381521383101556339019953423870410027573424986541100189910666834031062720103054928849279553, 649),
   (5484315233764058296644686403664732982427075244857471083115393565320027102551633461677366585940561566927306480534349916050630258488481527363448488078144624338566556198722150333550632288887209972181550941656610735074442061931850432133423768492839884553050161432814322730481682062490411011781831204376015804679396581929090867586436598858465407419218972999890691329849644803858631722677392435198957053805908981437013225419144082070057, 650),
   (128585997594024540632976549944874225200514326041309792800343728358270414377370403843400042468496303783109985666331590186582707677820275793961832043250077249545940199591120370626188807715831099130756097123071592496861252377047233303929268774024215300052219025052243308138943258511312276124035262924799639307532585929210392770913418722690369258325295361664312057421980480016385379586576338496946389290547776880712744893640359692, 656),
   (4738448361972146368301009052766329296816993011556855015811700040436503416604611310889244730252645193825192799181678327467744543334048039642019493699516955428521504555695937888187746297598549415964860013591311675104317941509118773363278135977813660253835339477951574839136173301991715114179502160580877655242998646786734509594681221413714112010205192671905557308990093110533857808393267064011898894488305359961579426762140486908, 656),
   (111226887918831227647524715702316204798444892025732970772297325029903908436425399324541036735249302772390137601376825511394042141314538561776984717411316820857238272646319120591653318674193900748104024011456927509784983306145856807898817489530946234545169456670190461540185918612285118847290502429951688001015686828766989746840107195127169408451380487839629929670013115214173353342388532799858626736323827001816524332998911134293, 656),
   (4103496281467878754948673839695641171043515948008236443692932235018011958779593395230085936398790737852616964091333431587066774527285602329988881543781683401099622945232682211170588293720343794225568771770075910640339337346896857732598865756786629779821403987906063810691926079524825288879448871063040049440436828117312085308993937744276421000837696853870212629585420633722320862068569277434304442626872441726727783576013661662786, 656),
   (9643371182562667437040392851390814956025172138631048565958178080092668861438082121437707884946114550366224930039370771837863453651970493306064574999561168368322558238435867755296342729052611194860618881793315615098358052642845785244827476342333038535066191893305513015534119143685119804060086560676811349688060048054098011051037293817525587712734688295695914902390137089068829734785085793747742938039275801057492659671005595343289, 657),
   (35618347723141187592954488928558165364657718428711492331254651799956343802206870670597145927941503604560715248312774186175739602896839028224303491800025011921544727164619681592960706389492584133877936938964258904358145448171064725118958154768907946488849786615024633876805918370275483507473616200827187629142991668058268900482067379620319334287271208691593445624801451100709745082755181328129762562001252794187997161439798583, 664),
   (838008955764695800278810138785861819678587458847038120381765675160052924058969336352936815201817354426824946420421320072710334122356235868297011567461865531207230310920076907935252183154671912833387780827839126952047314774663298737775507694148741048697252075528249081049914953586236910972821522122814906287892418175901117160335140832742973572236644412895975005017702913040081303952823955476678861315613067111896112125410386235, 664),
   (30987962519132833205870405367845603867252215032978998328191547065962019107919977483419516957309108135967822266032113541972893454520249954555144037866021760371743912633219122985875814558858548196473805136898905246791586539908826310853493594648949913445299314355071431472821148982139670651502046094719653237354402751210693943419398620269677820829925951561686297693577262457617478221997007755472893428941089930943557530452624767412, 664),
   (729905800471050042042843630882485644940049676655770202852517903064406096855362291963407966040782915705764528332186969783330701020572281441286697075259284877681497600811386986811604651527719236077880757101047879575233211168731733200602467201603553453415306557785104949594475924573612349457327545768971783376754296231209873046651907665319129981418117283632394229370419237257910815742909665220187288205898981454461513661232446410973, 664),
   (2702150331668383055551899348076136657224393150875768654218302904151888066210622036554181878677354229456394101598000300860036309234165796037208560101917097504416069181616707524368371029532465402732515807937584537520226346280049654306424641453388432452430100211762228824430004191242579280810978419459553762297303919905572511866171559687515905976369542976179045158879937286304244100958139076277236307003663041978278216655468879718387, 665),
   (6372077638112266867034024897604099680326633677204873870902481293752265225547312808840551543536034854111324332339992246208477019909596016982432865467013556982159474055083408394865308607836988930959899009492147988691785933503028030841259538669999021648315626249463966209959774821527635810762469474563123668879065006098462191697271153918236004737780163886110801622403759941261561421435601377372235026037498108097449014262559257167803, 666),
   (236167938987816679055236003021854343841411961386542180378679673822875016986808365994835496196400759654488844479665226295167173427066090573652028152907554321885964446473300237629795627981137476198821881613744888579267782664876339786381513663026148996342390758508018799255182366314601429142879513860764998824784362599747037537103394316688890182334698056118048546886106518822990934423741355266630453232120149868901516135687980087, 672),
   (5575567933348233508654771785403587220285804467554264637039671132033232072353898707735482600594030497347408790797493215432417392420896514859628757283636862359389539798197982345507145031857365314589911633305629490105312691815149526986102096336249143942276172968280970433714802968836681334417160790242733210269181880336154417735112259678456504145557643400346951419603289948603866243756151205200705647782810844585267887479739350021, 672),
   (206883114553327410852386738647144405205076878174610950011723394268838514880444128611475894668047065457332227764186738234566443922109895342519176661947017585972104855110611008163700970111476429150167968293640522395438577614431673652870205968810906520795934304453024468147539752891590851929162454142030138970511101637378404882502573421419467799725195497159410527072229310488940058555197427213568277031337251285157728134862670556551, 672),
   (4889773077546400787090234855798945992190650518045090086683791582793144527454369166684018240720964746173677509529401549934230053153126243531894420137749528289184626403019630517009766192938909380895352502409037062822359230721886135166811538486890499237376203693182411070367882203669769530283850013042877025406072509054807424353693451738006354135654053262104276394992085284925590695774144606961018853105525110701279937319731409969142, 672),
   (1816433745778214667283955565321927877700574990373084141102931401680402160650299449208758355185453234715376959769559561699493377636124881107318371091894814404835080627871164651677294517578763047938474761618163786631950711454710094672200408406159759252588303193097554830335399030388167679938046347367024620161087472376182394868372594640062927281587216465059624427694173346092893714114633410935129472335141066283684853024094247486518, 674),
   (42981105351632862918523164382472735271355818053616341861950528012751740396323904975152520335937280118866625308763439623921882167215979680645351953010818353661932866082542552244515844835933013458070148496175435782208537638045379128116273423299767488296536830463073393308533684570257274171195041614646889053319377354591757260068965440777075852852399128173896589511980429654495942215854731095187355718797565723064250649040439093, 680),
   (1598461696284828907209880897483296532376505991528314044170579633478753901372263515303707352563198846549531724597212414295554172319789895374440166560867436676254870952526624893476019175469311482185857790223984132236116626080144883311536359397420588142277706809925848250695151146741587558345480785682981665741756975691040507484167883283255376007796750489252469496370872544561746468420877401622913935654924138329642670661202937788, 680),
   (37866353814788552231218907820958479774064475705235997180378415179234283289161360283109370415960743784721496897020590308675178189317278098648555070602530969576162855018719988527418459300456984856559800825130558924125721659117979011870436885927095157189248947637967659504818176106396658544822831662503909255974371449395338146120758553324603826362963631921202895360054758525610925092168018094860060388260655402019604821804626841486, 680),
   (1409843216123219096159114951580267541556078284527972986958451236728260941010336420497869884960741382656686981094741349408678779986054687720256226906685079148456796180128483156045848912763932727287926570977554004632254864202687787080775068988524958741488937406354598157113123311426080226460714052972389829184229652559497727601036073055831241638876733931520678095799109584303460385147213868231410091247643090006744835523180991129135, 680),
   (3343599041845829162016629560590633764049893204772338551027414060326387214432948112998557407729333676190908176006918124256018234116715656110667412734203484613575180098152974986971049956230351762834230412859028353000301222500117546748159577027362502379810682076432544334275444950194824949507856035799095187302536998981608358302462980258562517867849688698642215660292835177811444685638435997776143332283415871998331105765348550103297, 681),
   (12463014030529256810046576171969565067355732035227281204712708932677826718531373957201169783052953822685112912877513528772720415076723439447065045855096099672358078232335791099445304388833165309225270887441577400949132999551760037794051609858560635274762206672174647708880010073006549201912712228275926089988590128625959911993158885813548176087670327954642794366864128725242589804701370595165665206629164915659624346024919961, 688),
   (295908515203355880838471716112271088118415548622351961765926144338885268477315908000372330584046030342895373576612253996657613719329335565794066026977008388301403438686538286346937921126386131010829391538024009240526658191260402887212122566921581460613245363764280173583376878092242008031445259168219924076274524409872339709767973752882782831304697449829836085935915913236312854679001585803188684907082304671852302860233346684, 688),
   (11042230431048921533701266488365034649677178583211371147375460114352554472618797326080236427784917086899010040809476986492630287757976967350099630627615144309709257313849510914108539688506184463973590006273237577240931837602859393485529726334684722853439315111546737870067688924683802592894663034252470515729890853962600482025938772830803684013675910567813515809041618050564934566965414347316779373073440115274427170578079085961, 688),
   (262470852985376666303724412191584455161034591628026190086376490028591233139379210396330257228048828914148196362455069295035303369045120646859336565928606440423344850114959459989733936039104498206605670294227296196347145815647977360957152716859442755563948637658916513968455290867818661123891944882211072655655503151556765322564192718807028371367266637999064608225157415040609502100274406607428363512582004243932992637026978508833, 688),
   (9805500622771442321926724641668150768913334581891697578869408581545068371685492025559249947873006373166320916238815564005455695529083547006888471997322248147021820494698365691728383243393491804008547925570634968589947471791339141415150396985200033893854111819053503228620107765119216702490460774416193817968143078318789228039033630273753671404144208584218402038428956828901661895465287940417300083289214822363691327473334228333602, 688),
   (2333365883039998563440110024383185806381597519573152829867886996354176062609081180423375986757354089046777465662225566032863846950811122550579502071105311255363535717521989599308734691387638989056724408915680663185526126301110518738909087652880446096963503388787767809179567535814907897391399390002856435908777423017339643717595673270194482221455000411811684367121649419711018473671439474740038151626854017728564304543169838943532, 690),
   (87268955542665836665147849310846541843328677778836108451937736375751108508000879027477324536069756721180256154525458519648555690208843568361307400776168008508494202402815454656382610866202077055676076537578651220450532498942918358594838533168280301655301595189576178734718959109561028652165100892304124979916473397037224129547399309436407675496883456399543778142017715777224790869641062669713970741274011919036852814512674632, 696),
   (2079029001788638720025138031725418553486003389939679171412287313751570871784691331757228004200802493340678721905042979335281687633172710192566336345354832328528910324312092732984082610026386339249541448343871470898303778534289472196367997098716477472394481519409901117978994674411082936575736856492545084394720683908449622552377744883743283659316405366924210771105389632962517460041252571993373993099526929796150795347964326498, 696),
   (77843908344057926305311881585275115324249180578721808739128460847169988789136784092509773486174222995292788489836708999526511675666288462978286201492341863589576828543311385553493288892652252733663060271520156888641874989057083175866595971586106029076529022909101951431369311525728437557731269995935279482085494270157203923556280184017275646543220043108393050102679802473284513455719827901384861901216418631780872710545305771894, 696),
   (1856572898597254376982448262330798768263001027216133500071172571180152788503729359259204607751316626553226098661203380546406547056423230201961738356401865269376316919610698810554785770753563000949840513371077223512185274231120498671356621409153814382848271996833041698355242244249097062362133012847842760364485570730245512939273326181182752307769549992663320218597112942235528091816838546790082975837877548307962660245732143563327, 696),
   (6959245405958778611694882213723595309987876743737729701278084399736996997748828497870373749663975535779175290991401784557670143804566188590258786413415362604908168471772037868482300027003111394389477588273902025844583624021703235922473679859797878999441694648073714457964416450400122317661175537636613985698443187752054030765931448451144442800963871853890338679179574341111635502941352614383806653968747825681210020322750336007395, 697),
   (16616327442445426673992911947860648975953859193584394825636994512062367457108377765369881239374283807651373583017770255890338596154987910307557558289796694160918036430515754354465332648244388858501072594671141150434058204368528463108641761611926638726492034371655723200279418086029418708141090464988192705262145858035697340806496269321585633154537472434336715956444160833007976421760704993771242633749004057356265809199302684, 704),
   (623548388373906563607861446349634139774913756238900581234516362216434930998295033409185487969892208005814106072829599896367244884889130497687187262642016489399771895070774593016014082419478780937297191909341621515674692712344609938653641715437889958349975840467404815433611713955850959662441328172240613118580509622584041156627457781222542074966362918108574345654489860963602541063545194248789076195599805181036417820918430106, 704),
   (14904845715873547726571642017231002131430611696645202158596384077319943609026214855536783471718732575463282103966939919533633720751024155545879129785947634662343478678172631655955403385475216806075462117420013611939350209318570031408451660165898194937663354831375183710650638023168388581202558147094408856620144834658020514703427153581462312939620112773600034212930412267208154850319352379412804642472856639448570430851774508347, 704),
   (559946452759768094119859578821971457517872553102532721948595693270358568036468940001448568196963202789221067253400980706937785906630439186923094161852530807480995161773555584528380646012691945281692878334588776121075874055685459724910970260463225182598278304739729524259383319132354161776872312698672070580485297641080468958651457087537842783319793900461499762397731895145315081875063584435412590423648625052570703203184750235423, 704),
   (1339945629857031940618790617349067091615611991528403674057814928551062930451456715512756834107514058534149061146627898766073671495517071583574533767756692356144678733167719585870390764354221990866184044356059223713347583817739445823619804248914247724895935599340629015587492358282838133450109977423787356210151020635756044271838101106973461933271848138346643075742444062822013121043709778909211137358309811886426481733574528300479, 705),
   (5039518074837912847078736209397743117660852977922794497537361239433227112328220460013037113772668825102989605280608826362440073159673952682307847456672777267328956455962000260755425814114227507535235905011298985089682866501169137524198732344169026643384504742657565718334449872191187455991850814288048635224367678769724220627863113787840585049878145104153497861579587056307835736875572259918713313812837625473136328828662752118815, 706),
   (120729101250118577849753034623150944954566640436709171032609125062450770033676250067699390753087016673926830409311173678823237801746088149680065492474877981288635553858411534686922207868315401377043182396480936056572617301978324068708144362827173720013123797500590674304433061481283715823854908965883240794534606959281619588892612909738308920187793517265032541124394210060263382206038251079719923475983714050967026004195064999, 712),
   (4545645303503797388065020060876764292130089386086360636778699837968770855320054854931759476622947280242896623963109161378920945990025905319441678405918845095130718723277724235201394084331033211796782786320191684550893945584054562046827256574440462032332823277877124277937673784716451085304649434487819868972379646250291247006332528636632207714990086883946455071144787524789667834661766178446679409059179538176768968603453802411, 712),
   (109018378428857075798326990264705303293973676314348381442446039931393045340409653811132549850037576056555927859607989831977383734976717599161099139704814817103637905134145615822290753705088807443469993704022285259085073423686426634043454359632937869171850789143033378896903054517599195388940982796192566437464750084231302488770029457493692954929577546090324384635327971684417834132052540724987090898813293788023224481788143694885, 712),
   (4109263354367432838810778135032594920085600805022070015647944653523768853209329588858310566867144341339578548062650681886544535174983418408775277278950635965998169725843062708622060252235254023464291638833453282834008126807985324090331839943294177677228872243200920347255657101383671781115403088776989161551031200210263287293724605887515515774351038543087595384314887922409859722534236625315798185789498302511799147617522237379698, 712),
   (9866163247811565359748592618955829948104617706448528520541366613791070603307073669907495761428400633118311471294523079793953228015392942724079472143285740947879230414640178231917313210310537073634034430214016815947199144843621610380932619546780877160052496417444520790169726433842727182699158943055427262590559882622932875233687665903179212421126767921174356809497181437439813988950754935611331726342603087816101815601827004387133, 713),
   (37229925990568941519625649903395309975975543293499954341770378560925345810076526075056293735816327732536581645447615177892093488685349770783504012147292761851943417716138148140115865885251401452586482247831086742476113628880347036258406469886245249755693582523400338346136253338536066336905551984319521803652342673904985382881144929340890572915620409200373614181892884577033329086160183825361131563252854620756900277414751470, 720),
   (894861006576508978129197350539293776293088825974881536813101951870850103719951581860609865561555937423830850446413243337311557780996139905074008123396016703972646198607864165634900308175165712578606922820411325206410962437316480061550588592893025558416761425062218035668394187549535355470813716135127252716963781353900011783695471297418354566596197850450514162621394356375791128797833472659947787579274100064920434675085709297, 720),
   (33804772799436598899820090112282941458185793310497958542327503733320213995549485676151114712121225581143216134066434581526020887726297591871421643029741827761564623286253438511225206223808272518948525881030626762168311175023355108922633074656710686778169772931247507218291718031390748233910241201762125797716327147905726727656079595841528640207383331553939241677158739195946262810233446913427907459433591995647265451892594335359, 720),
   (813428654978046661119440391640218042650417742811167316963109674250602744281435987911294367795454347118262243055789638193616206022925491173712273384166979183911135394534548526562124380131225632733953692843753894612627564855520680375949485030939760232600836135381556194422570316482527638122969667966830672719720077250695110711379183409353284301035943846059517373822847469945594136077230626647892538909560156959012675119652909751802, 720),
   (3076234324748730499883628200217747672694907191255314227351802839732139473595003196529751438803031527884032668200045546918867900783093080860299369515706506326302380719049062904521493766366552799224315855173787035357316316927125314911959609793760672496813449336743523156864546340856558089285831949360353447592185770459421132216703243221579106258871883171408470992621445266831109915731243669121939578808456871603901156122226084517700, 721),
   (7410335046850005082798101967842386368545305637009734257533929132422991000403881849871891690616589102247369034238243603943843636868851224592518810529761180365430443444209737076980953102995465514206318141806597979921037115833793398224899808631861215718993617193325976931189615583155826783300253675177827428476649903753832458580664360859208419982437448437602203275526140451204362579663571008762301029466093029896605470340038007838924, 722),
   (280552570417084221589386891859858587749775535842484657534484418983571119991864291523513331218836475343023779339844153879000752551418088974459302499832433376958777121577274536892360231492629615289257605991849377624587248103753828719970716413190973331709386579511009311906046626286118097742867873781664234420407342265899207258163335781808014490809115745232452554527075808334997224314689422623920889587331266690275785438347018908, 728),
   (6765635897774054640594667096640098754481864046589887377128477297902190783368744128933037113532945850351847928259516410400729240461261168052969674013671957673637994864563489951283610183034860014470368463469423955667906886756253372579333525280889289951441172497506616938176119027421269853153131605437356442199181362127249034684146561464457287443965390423530811590555366231949583035232840330999980839902542936295600794420454701156, 728),
   (256425049361214978532699619159910749203294839760030976986518758950984003672563962452491184734016538463523734316617556645406687831996133322655802484846844106540322289121628926719617251584263468374381451876550331148872744766830999450053234801656549625182379333673062511082126616425511941336981236636441110260252310831031875433961288904572525244599531791142461634837747288818187463023626132278263693082820777754912067890649175281925, 728),
   (6190556846463259996144120393425690360350905602629746950072556727580504566782400877973728958882645453071940854357457515516667255022053968768467251722509841271378765301075593305424503317476896913240387144074522919436134801381971835910090175632013700305568672835218554498431148910090461915635115418975181144612250946346432866735994103739978418011228332237530692605358160102233868477238048902864982468510826786710474726894716051558597, 728),
   (2348853452148729203359528511504782462702180732201883749196511831991013473640685896064819252163591492325877406340216818871925260541084581235527150761197092015909352168354120968751694024511853370309334099189201033323674342064171954962487630783173994566670594696445252601512279806457689382646748127589800569983911167212251978975085406365884331240531711206864948575113765165574597161296415371668895428638638324234994541878346445582433, 730),
   (56767406282068094164641584007713580604417804376114779532165345191913226877394616051019094552953858804669697634457885417287838728552234893606844698295415244458543277810863190610742695421263144694414350111163375171229356128672681735295526910545565631802064729898954144750613635505529535766374008392002411096094341177996789387969065931295602093162963806618156451191134328137484573936272908439271889236244281634135053245624546192, 736),
   (2156247469072533408684047173561390300760601912161329281762397861767750368802149652587504073486176989955155459020319039724427389176715645574213924398778930470604785290549083049314055114501881393943968703055686548591133046014909854655563645058953727012203605931336741888188272862328158853269714781127436923245230451500847316699128403043881816078808110887902022791954436421997480194070109311192046003490269981647724989444322037044, 736),
   (52169246373220578537305615703088780575459962221649482390059952231368255500325652150886547894164596241491452126066796698487523791539503867224690277733486609657401272308183272171272537092140829974166787752159141782359778282250194514736589230791374815626097486777138859025813931029581643369297713712250215797310699542579049447543571590860658323616763738282085778644652447558348323447434802855690866208108494821770113932728957951176, 736),
   (1983747671546730735989323399676479076699753759188422939221406032826330339297977680380503747607282830758743022298693516546473198042578393928276810446876616032956402467305156405368930705341730882428451206811231624703842402333717066283118553454237428851227317456829802537133211033341906145008137598637241969385612015380779531363198130800371270792503462016869860968598081508237681778544500566296682323211048383115906990288776274081099, 736),
   (4804787590973615283285847206254476690999862520613917328124521600509016331579992563096651061052559313841362740810751975930700941200788306171393974579254116749446657179583679366974200666186170440620761151973856958155335579795242914807239868155885620519163578532174488916277463047824469354312319432898244874932315427871530454118762943518266631605103940295780100213172490420123880589508745343009128777766792373085027493204337027303325, 737),
   (18290153531660857385821561745017137087171729659717259499621363622658765728327354213108244552939147699595610665593954222558482885952572792018712192320202399823858030748553542057501541103250758735990320126799555579769426949516871351130353062848069094008315866951970779392368205727412374656975028659435370957735342781810787279168686765979423116706881919795540118130474311505951425998180295221255411020005866092328662450462517247, 744),
   (443481894646864690647283697137288198579287310652664569385893343726982207404833313573820892935151224667557780976832407378403696872832760659619663853665154975973926457675573605571718721488983531669296254327186997237737474015100921036708239830788242773918798298519705326972409839314198521403027083656508001956252713992542260915161819686736010097151093689300503249675820865777434178411657195159742586187874936035748037622760307620, 744),
   (16900101863254632224499123052395834668546678205578747777650139987336699532974475292912017966915772474426344255008813701644038186620177259825290065703867017437244820411663472861131423979403701072055055797162789355706950501353589128444446230071615842863683861063621000158548222092129034183044926481318282764947456730393167445951866571764986959837158893891079069152558263831499117622318592784439999782485420269311684104227365936253, 744),
   (410220752548349838848737419851991583685840762353714726681951342947458541849470815055784325965014882817490947403569976825023419607370303610148189064640268352775881973349905585153839817377309766794099035252647972444907163463968351958955121843479124565874888426130727427449479101365633632297800052382269901809533760443101591346524683210230809339864761662602965505950134300844126615030782905522761892223784315833066934801053284548589, 744),
   (1564949432537378943988618794651854290307422401836592044210402962827378376753436412123652863736400531131879478013816148772237936081028414259821860084178085814688870370120037586940769860492782719272298166817274294338463616425342353293955720904631627049177125534491304614681565365731148565349960192170072984034134493234407305495142844545437792480920913574313921803526895230796818291826701691839143979858149916938261948051454085697086, 745),
   (3802746376123203006127795882027961980767743867018935516341688949122940682944594455567120701695687963718141082431093685167967099760322714466073712629215287630232425892953624774376095107087661538181298056792046704564289405310986622659513979489051484725660215710231843252456671269659423771400606485583641989774377959307551751782283813358839602580546340612329490240157744968825053721335357534196002740914480607772530485605763947765426, 746),
   (145227307339468766002143824143692078140528798890435741702725394950380713362718899045074985754737969289038415559682138606063680468319436843311468615811726363603127170347139488068103443053730236348469269880643054514609423604271770385679090899949814990163637249600793068242449265939850586864476305833382772918367680972152997949949255973816627142229460779696331943367295877417944737481517917002672561330836312291870708779174939152, 752),
   (3532751383418455592692722374403976680133234052460591094681429033735211894455528249221855131875294118294153065578486033521041435677339801738982479032541002208485923654553917415395392354484437568970425894759811388540224857533906572450688486945328829310138340394805382381532247609513604683631163425107203408500397124196715577405741662610361990797327550428854096433106545076038474907120547149268086546309552484620680821127754707474, 752),
   (135061395825705952381993756453633632670691782968105239783534617303854063427328576111919736751906311438805726470504388903639222835537076264279665812704905518150908268422839723903336202039969119804076420988998040698586763951972746458681554536953327940852182642128737553465477817324061045783962964425045978814081943304102288093452808055649463242273398525117588707331585165998688605857811662812485482037677770431439759164632693412001, 752),
   (3288991537962582156796924530570102289204040902840810309148410430407482273738096800025547127775898824131856504053570497208089576615603355418992687979295673056100394922389697113733110282025011376711466508021384402730949342364067018951590981346101140087738794907563810997206522524457165960460613148774806373313869722627142202564745487890247013432311949449263163779222193465791820138529229395968588574614193363181853844469939632658368, 752),
   (1258772209095579476200181810147865456490847417262740834782542633271919871142702329363091946527766822609669370705100904581917556827205550783086485374409719429166465061700866226779093403012512196573992243617461739310828640032385996994912088284405016408742342224639833998298253257460248946706534828441428522547243711594233325030980171078652997417988074254095926752330373747107777806594804697412364692591156820421018555414376702599852, 754),
   (30686291049190891522915305870219054358273701623504760184354669315701809613976443144238354702149136029150221182819812738951475749823579306059201778846828629613416684625895874071129918931293356144717982519839516477479757364256745286818343855959123637018602956487570356603936855153185358411097520678068943463018404512111236749929075402016004635323470488361625318060143065035837681892477710264386931401150424078486696368904536772, 760),
   (1175693243295271230770969810678106336362451487723399939686894819475973159647283975625127878056934212317431192238564244879510998076609984431402777339698677946841478367628609055811673238413686391600108755538709264516313949790248521193247890457634285325765347637813604954410568542467872516223903529764294240059125626629013925578935479787461899588400861353325595586676569079798664471359547587383148622880140470273231330757027840228, 760),
   (28691682130993483573925810988654815824985911017976950772371615810181191989067974339862861646509442187255456805936524910919629826085046651165353663221784768688544600125212642256506474200759287995311313656049947906443573135580056843175151505321780600612393764315878283424680959568228310114376181833994462137922208218824006361183685500884964334027444906618119672386233765808508232569466659097201780860075646513385061104925741882476, 760),
   (1100448875724373872001627742794707530835254592509102343546933551029510877429857801185119693861290422729115595935296133207222294199706945427792999589957962558243623752100378076239726151155210462537701795184231871587269857003672615836880025468345691064916365388993534237328292155749928675185573703859379408695341586524757034341883609081064338014743206226712757469129268658691549945192536541790627111015811480175744525588578058453653, 760),
   (2688410615674089410876848489636956242801179862384440287371220401413977689375669195645150136277934732945836302716252384153169314704168871214193638243881232826116629031732424579434656632611145285160670089571880118833762802803851326205511696048650842277381295716397795156892605911542992657717048237845281102323310910103809396042911331432921158098371587750117813302590103856257221391759025957407806866589088078304180225531542014388087, 761),
   (10322210454294626919375268227414356639234688077735379982470236708656812030292066175116422728418904165199104289873077729483745119593251148112698336153805688796325190794701546355128631297835874138603642838828094955488591258694449136549934638893082582188915507348759351146139380420934330973240681342200978853562304081602220982126868253180383490578291274406565665060432540018526738485905992761996082301328311684048483650020862188, 768),
   (252441756811796995681336073176910191199030789077898942984157595692772505032375337471079597796498071423614028825056098871982598650721457007012782631100447762372351466079674668008914257802186542276586921410799543158490327183281639530697548258968314089846103667769752965232215695093887010559630829533671895508158894458747702288429374021551296745437092089736062669113210752102553088686172537400593064772715370552762523177411795151, 768),
   (9702877827036949304212752133769495240880606793071257183522022506137403308474542204609437364713769915287158032480693065714720412417656079225936435984577347468545679347019453573820913419965721690287424268498409258159275783172782188356938560559497627257580576907833790077371017595678271114846240461668920122348565836706087723199256157989560481143593797942171725156806587617415134176751633196276317363248612983005574631019610456997, 768),
   (237547693159900972936137244859472489918287972522302905348092297546898927235465192560285901526504685209620801124377789038535625330328891043599028455865521344392382729580973862596388316591857536282268293047562370112139397879468022798386392911689183558545183551371337540283514969083347676936612610591185253673177519685681587853412040954279770237456303656441634971635531317728502456453688357693958073951125163690149534309944499237129, 768),
   (9140110913068806244568412510010864516909531599073124266877745200781433916583018756742089997560371260200502866596812867903266628497432026630832122697471861315370029944892325266539300441607709832250753660925501521186037787748760821432236124047046764876640903447179430252883498575128931390185158514892122755252349018177134635253699300826165973237265357661525765097711805535605056394500038470892290956180193429991251302420473050491694, 768),
   (2240074746497866174787774219024825579929455580885316397432510365867256883830436765843496051394939181526724154602882550633390946865001442541138838338811866277620169139948583524283941825461216567141790003438513150157474522003383454988783685157229000957081080889431713004873546158455968593512256917874876942138064010635977373457675546198858233339212943480244617782523060326179778164358281213054024637359110293598110108542776627806135, 770),
   (86282647019369530948725814094502561039625978295250293079325914695376736172543697063645329576969904696292747060673913473006836973015758331395055238264134370817093082679783550516130996168776780816447114559136734359996196716348302154320309011004121460435490128541373821587220226549217112323347896380581638809582174731592150956794921399799006787359784976324803222522399444256111732364080363165223226626341025979117412294849265596, 776),
   (2116870635440483535174446636978460173033335523936623995573722295744557755219762743722103768568217526542754326099724010348554444787426363201376202230177213632351059837251411430448325025060849655948991553249394926898813423293197364964400582473581405904441621440512968789605501119740890320869082787391758710320470490050998617917503391157921030505556231588831163804484292008239890365318575746336053282304359227450214052572923913276, 776),
   (81623384080323576277494620133399422743486175467306777253042315301826392419226337422208481779813529842692938719397522145464467776472907381499722255397871114792970056215075238788259922375662834652358970372943350704556402093665493837987012324409898901571973661600139635221510334315559388257887109976030230313864737296086174805127995644209860420842356587603263848506189874266281698816420023554301172388518610576245072030927405254422, 776),
   (2004676491762137907810200965218601783862568741167982923808315014070096194193115318304832268834101997635988346816438637800081059213692765951703263511977821309836453665877086624634563798732624624183695000927176995773176311858657904621287351602481591391506215504165781443756409560394623133863021399659995498673485554078295691167875711426551215888761751314623112122846624531803176175956691231780242458342228188395352707786558945873127, 776),
   (7737896810814675031106489988646265276082489434300682483588411490613142001342656787625364072726322629087290590598885099390031545209631619766173669811718181682373561329189132637127040641212836725043630391355029646791946918479488815841168768354058415869023103119693237418999179693115030006847698025727665833754377095668969371526133987071094767895855404504789412838386800080443505047796618232947751142431564282628032828531918018119296, 777),
   (19024379906822688745118807159924530928855777353684157946940909483525212882892664370712858231235627957565529411288002672722769251937944348881663970728669524230347945289173552067782010449972607683503265558798909689887443199538663514856016966707550302305393985134533265901248326728144973540360073082773357282411377908203026109183140501437971038784349019975773334045814466806812141909828999789594500929667745507871897196894444396, 784),
   (735100197027394127955116548921395201227836496258564835940899091608248490127552394824409586909000649763292606106894084442052996794915003877786498632113227259825488326272967600527068860915219488879144887178727816445234957255551437504911032993635549507557194796370857554804922070845927850650531312444128254206665824088552090294982728771754002950106263427954994219646746007642132979540678732130036358530998606849663118710532211721, 784),
   (18092185291388376996607985609088228913341844263353634207540804918832477451630923816547928177905082187644818470134890541759353558592985075786462436162964717543060895970004048016460691937923949907011605546417763115082958482761269002628072135338880337492429679862941135872087158718465869836882429501717462775573220390701077829833166616867510457883915917996960440677569557933278346956247378799904370384114025977986174234246616620915, 784),
   (699815387570079209813270954573168231568900344438153723815735935211052562601429879872837926737368618574654561013763168388834452948759083691652746697771792351353864886611865155701769555591288953412945932594148881255863679307284968504675303409941043131194449446145056392174285811445323313819305809446810098004745864532301589960823557790709810808501162783413154497103702199275310596522726152987794613321510673720879289012426665558709, 784),
   (1724185258269312327776741028546108215441477758297601339978638708764735101140427039717017555354354332482551200203855068629666394133911477722449870166330537581853703385941385775968703941684152426138206008573612824867405943407148935950455274497795296163028548490938290248609906225869797395454895531513674202512127903233812717183100778587473746636337186985110329996572378871041426464930375199630886497606066675702082404523702563973249, 785),
   (6676238797418555661618604906628024929167309285939986525202120821913441447217641053986873821074496621202204512071300626429480681131161658418367203496742899031915871018277193585394881560340896615559504196948180327180939500591498599534602394530837551471595047716223837981342686641188384413836177422122568334965275547638157168226256741323371595113101092953761493902369318981086463090826807499503560611087211827297188417178550389430085, 786),
   (164659692164719327302678768226153334574661125917420927967959996687032202158910782292975176536340838752083639619468159054133140639788546122493962600884566339067028673357402341605011226430836556696198673818780024774837267595382723383268478714539450783569226380884606718742246044570565651265942523259555886339908214758829114490986124355103742803770201357078036514672662182184456227400850831564749660521379367529548869632013594859, 792),
   (6382484290332139212507386290736391832283947677358627118093227505749250023540064847611451372947218769869307513540163398866583531161390545447959046542886211474511572693472997067637506771685897164474886012282460392784978162565472661155079889171480699206844865616709989110163608428976095499627385615549175328226803423542078252824301444705143244928124644863795988170665068945918658714830427969525403944199374506896112126822694172295, 792),
   (157579325401636396228663581192428741187950697502971828065337716829489817466077618654377243945278182685744043115831028214805415592277638639226722209046529986487146440403034040915995743694310584758262130844572483709519265088781266277787934129814254399875749646506568629836329464654031328261506994759394983227292161524199462567873721007834281863208082698723680944541737708350524609622614245807465425118960054725778268237837010280489, 792),
   (6114419950138189365582076066525463375328021874909564779133311950507781522551382124011770415283435581534796597971476536114187022852612142539144766588084990592582086640347131190796731487275089483566940799766597056288009079737722809386566533826278509840157381260808169567536736874959099488643035419696109964441277679753310966205680784027527228641143409779516556667497136050190075048807549994805336978543000777606475417496141017058764, 792),
   (1511185730601693039832883743635391627992447189053499831146588704394807349499684362895477769435217771956285373480819560579983935529942554550184265984756222570411734363465096452384399182028438507831733834799450118774289752201412343603986288304918699694808439109997993160130399566032160438027852079742597889149731829017072846025908984465130763068165513080760100258155264623081531006280870617293593426890826924820213592400856928589890, 794),
   (58698431521326617909587930238644448403149009999131821879679794724874702616493268390512995986720981582734047340526174746696195419385076568375789759245615909688788031747332459431648622277840859042242631677759331740364887165482138970111038724732273694465510860103758427848352673999607355090973140029082655658636265725631785275574535526664261394954976733883358944007972506081824720468552479950131234994012807465022164007962953763, 800),
   (1452249487108227011279401277633611354500741748680413337731871744923409862869196672742554136427244278849990243915067597717364562044274794922727079611350729890165676723289957690741407613929329406026296215242271564142092451865557262203430823061026870406710909984708071426885313982956906180944765848632636571472892287685407005030898534070990663308507058070610456348087209302781351297035916663219143283242084674752225262297223508374, 800),
   (56467891123516206429023588889575959363829347619164812648251962525329463917066524191673502139225584282590153541586180106321739993448443658777509748394282505120614086540933825973245974631282906398637411674004477134231021453193817689246819253192447294075821447419815607590115272387622275597516160707977514743608087628057777435102703176651019461946687617995791304135669550850715381090747485712026248064240320781351321775660361520741, 800),
   (1398516256085222611862063430361167734384214303979238044235792490361243697943036395851079633379436240532540604890210096601822073248636627510586177665730752884229546684528229256183975532213944218003323255278307516268835031146531643501903882607768876201662606315273872784090557365587500652249809512233229018328395273041046945844755288310364008766092296921997869463207982558578441299045587746680034981762127541786392927592226238565013, 800),
   (5443504704306962299757873968955122482673149110487487939291489187441760321605212932077325606221346324841690801408907762249415735368429968706151939745208833493627197942546020823820911954455672176828646485374031595739870468087884025243393376007751919148909187531270224571687112258166787367600557892249032421283819647344769744743900586229158276131660686374794281718678544702008962737148057622639330313392766923322267419173658850599442, 801),
   (13495681871222398204468912102985268636807668033399647126875397531986001685150301219962918462111559721139016837190527432207583006849343455477156614474301765332815125505697412322175363885864561703732069413435667531994258050564030359793372467164969655346044150942392872366473878577919381294210661793050660026869014384846103027401888532195012684592790665297279440319957031690281958535789921755462337574004530778238691751264983202, 808),
   (525842554436052558156610625401064831826226204073091334935557855506874047067063569238669653560982054979707331416100489833293560036590334977014277379387173315484387321249945611581100094800417932281647250487131452148471487217289596838511800122348835389784627515520703693624975044138911659710213892391256531896016977933504757342260796629736689474318422303805127614024347418214065800408502366346959308273741284792931032692175444967, 808),
   (13050324369472059063721438003586754771793014988297458771688509413430463629540341279704142152861878250341429281563240026944732767623315121446410446196649807076832226364009397715543576877631031167508911122792290503438447534895417357920191175748525656719624693961293907578380240584848041711501709953879988245982336910146181627497626210632577266001228573342469218789398449644502653904108854337532080434062381262556814923473238756481, 808),
   (509015592694098876295599085388230757207786965542752412217620004130654077560917535023032224647030629220356696810785274158628166115419444257749820503246783769388886926969947352010504891766804558448634538471543245679720399626336329739679422518433672657311519435024041175428975842726466486599487047834736322875344434639632605107308451137585115411140232790083363530375568300831215694795430290623856610408981563679557239646025830728933, 808),
   (1264576431401842523274607342547556537386743152366023754976616562161411925702459070003331374612316002458084497383477958610944605182699235268157172236455366305745042734672510638636172599442446920131613487798572949783185566131365941982466524930032136136131632844849379644345045312671775241844515694530970861035688446593164999704519979810296737075519048756885267300692709770552307163308147985306858594060644744341755366084556835503043, 809),
   (4937451249132759100067311128265838344915533565764698398510914040067344552340900089723412579076197103437459959064617159338693211319568609300173258881493802563072203191608489314501897450138004216951755023173969483093287876375462398474890398428806624775921738519733199401661065674446724920015024363996942331890841016004436269540891976034575619488060258063808626244643012518062792239515673819051409120967121167691705224566450558070651, 810),
   (122790371489118909009964372961367739780252760094740906608229468185873097985708775697323476474855883838680004695935709781122721163240095744538061424159816068287843649536700783011572359405861595944779669665241433423947318471355632966497499570706120418818381549234874763465903899860429375983102473938957270606565348164196321471308890039579813170032899634293559454897262118720629025557221169373295969483288604675584446046810468727, 816),
   (4799202614157041845265426416674394871257898625923286843352608446945458904875354887211157026862063584541211080210807878877209801402620688239768407632811976091306181502243451613695844321534140098877105882525098337566675815836949451317593467272800039282195929841180669818414555835562216622254603681805027946597897467556312053993747000705607502142394570838021984709793008167557034056809234952117969665580041774996337478278589942444, 816),
   (119475031458912698466695334891410810806185935572182902129807272544854524340094638753495742610034774975035644569145445617032407691832613159435533765707501034444071870999209861870259905701903332854270618584279914721500740872629030876402067082297055167510285247405533144852324494564197782831558707142605424300188083763763020791583550008511158214442011344167633349615036041515172041867176197800216978307239812349343666003546586071707, 816),
   (4674423346188958757288525329840860604605193261649281385425440627324876973348595660143666944163649931343139592125326874026402346566152550345534429034358864712932220783185121871739752369174252456306301129579445780789942244625188765583336037123707238260858835665309972403135777383837598990075983986078097219986352133399847940589909578687261707086692311996233413107338389955200551171332194843362902454274960688846432703843346603941111, 816),
   (1164881556724398810050279515191255405360312871828783295765620907312331612315922727846583490447839056006597534549168094766065974995367978304496454215648135085829700742242296153235034080593557495329138531196729168534632223508133051044920154052396287883225281162203948162310163822000928382607697394640402886926833816696689452717939612582983792590809610605634425158746601404772927408204967928552115538495588170406100743534579214199145, 818),
   (45622371858804237471136007219246799500946686233696986321752300522690799259882293643002189375037223329909042419143190290497686902485648891372416027375342519598218474843886789468179983123140703973549499024695390820509836307541842352093359722327382645425982236093425330654605187266254966143141603704122228867066796821982515900157517487987674261166116965083238111927622685962757379432202221671221927953723616323141183189511062854, 824),
   (1138089280919737637419123086341856531037025675776721279963011626444147985232656505106112070167538757718445791254537228586446457570474514803493035768688227978855617625170723341710628296739905672936568344979204397658335682367445990870886990509191173261911099695473257354577030054094907029807720354563673620527516638912665595305427001493575165361220989561704833380095429572463150077816253666195416881110189642486760426433283892272, 824),
   (44618679677910544246771015060423369911925859136555652622673749911191601676164883182856141208786404416651043485922040104106737790630964615762222874773084984167057668397321280099880023494431608486131410046152092222458619908775921820347305808436180227226610626899369973380203873146397356887992488422631539831991327291898900550354052103251945427420462391851406873465214986871576717084693772794455045538741696764032077159341819471667, 824),
   (1114189406020423147033321501528677543885248136585410133083788382288820877542770718498883716694020443806358429638191946786131081961494549992619682017545775191299649655042138151534705102508367653804900409734641105307510633037729625062598363708498158623410966601868318950130912422958913982181758227117836474496438789495499617804013034462210086888635348780909031879113425551441423926182112339205313126606875659994538457478184930534840, 824),
   (4372630608435233336183559475921490251368734195382453957022027491296776964264158551919901838461067632831802261620359930202460303481834532344697841727762328448371651502937485449788242302454297631640878184522905037800944751060040338394035969226745662268207841436138257391259979568346940975023263865417890903535150074606092253934697106118690651887205314401437873599591068713414518274299989733856594462796686282875143561615498308223367, 825),
   (10930198073060351072396883929996326705514284219902873405551964030253332808694580748474049260768340553740376194750662997971945914042261535427599080592124054626649563115963375266555457055607086683826073019496829243066679310100127621864089947980366936095661582364328208900784250869226946165203048208025975814810064524950851250657367868074280952377512771540717602734102704659640368715846522047604121772013450224546422267860994168, 832),
   (429392325748339913613225540535490342684409697986556978579563099645343497890740369798534360536876841544082982091119345145881601801916151076249328057666260653630096177588461071169205394101012027427134237720149274712052774554095961230294332178066424034738010029028776875821729993611669603747284511584036886727151737326318259336387255820855422015323561874221199187479842947657305694536258991864717576246634592978339097750641933867, 832),
   (10744384705818325104166136903186389151520541388164524557657580641739026150946772875749990423335278764326789799439901727006422833503543089325329896222057945697996520542991997887024014285661766210201029778165383145934545761828425452292400418864700698182035335464134629349470918604450088080394596388489534225958293428026686779396192614317018176187095054424525403487622958680426482447677131172794851701889221570729133089307357267681, 832),
   (422522048536366474995413931886922497201459142818772066922290090051018001924488523881757810768286812079377654377661435623547496173085492659029338808743600483172014638747045694030498107795395834988300089916626886316659930161230425850609622863217361250182201868564316445808582313713882890087327959398692296539517309529097167187005059727721735263078384884233660000480165460494788803423678847994882095026688439490685672186631662925654, 832),
   (1058321893523105022760364484963859331424773326734205668929271693211294075868257128261374056698524958286188795244830320110132649100098994298544994777872707651252657273484711791871865407137683971704801433149290239874552757540099907050801441258173018770930480543217260990922885482538333675918867744266219121256891902660628647770524972510226290354428862860815752243530861430022008521096197420520292892636088324716819609296774690866627, 833),
   (4166067398568573443454781368405055822406387148193092579853780287903037498975456845474132014175307967102663672163741755248178312266622957618029280654211900764076064338045870543140711342862602932984638886577941099082266911389731998887010881431323181926796510424044160155672621613218885296261053679671106043879640671956898068463869888915336309693952874958543887604734431440478617601757473441229537456963148013378160727760188196446949, 834),
   (104456370890730465746447974665932916011625127348666099523319116119954725288196978559397619396144413382846834090664752594870092466179770737266390984576036245178637272892941053857753115684489408007263901451834946675618357169207860825914102252181676952690838429615543659804088797126533533813192246359075827268055230792604047534950814786759334857982128764362514746436496023143172241032194685405352908503181917649550095437591661988, 840),
   (4116074589785750562133323991984195152537510502414775468895534924448201048987751363328442430005204271497431708097776854185200172519423482126612929286361357954907151565989320096623022806748251697788823219939005805893279708453055214900366750854147303743674952298955630233804550153860258672705921035515052771353084983893415291642303450248352273977625440459041360953477618263192874190536383759934783007479590237217622799027065938089, 840),
   (103307350810932430623237046944607653935497250947830772428562605842635223310026811795244245582786824835635518915667440316326521449051793259156460683745699846481672262891118702265317831411960024519183998535864762262186555240346574356829047127407678506211239206889772679546243820358141664941247131649125993168106623253885403012066355824104982174544325347954527084225694566888597346380840543865894026509646916555405044387778153706662, 840),
   (4074913843887893056511990752064353201012135397390627714206579575203719038497873849695158005705152228782457391016799085643348170794229247305346799993497744375358080050329426895656792578680769180810934987739615747834346911368524662751363083345605830706238202775966073931466504652321656085978861825159902243639554134054481138725880415745868751237849186054450947343942842080560945448631019922335435177404794334845446571036795278708690, 840),
   (1023775846536340387476279135221061850500777756893002954767055423900515063002365704890870473725417434121147992454264333534795827560103271198240525375919885478633372125250986339449299709292523842985113425490419794018268762431834551876175857032610093996553380540277647254303276259749183899567759074642838592295936636446004343849577586216880373349734264198229363404676633157865999702634129789711009802710600943064063989882881503233022, 842),
   (40423145331367899120598948260478383754040383142115026924929269386020892861898908588975967416595110109521977318886646929582013854278754133269040255935497624203552154099267914804915382380513230273644475078376988218516721360775764654493521786788409840605882971537583453400147726151030828372910309305586230256904377009820452896160733724199018012279463925660153397651912993439164578850419717629567516959855559801666829984685009164, 848),
   (1016609415610586004763945181274514417547272312594751934083686035933211457561349144956634380409339512082299956507084483200052256767182548299852841698288446280282938520374229435073154611327476176084217631511986855460140881094811710013042626033381823338577506876495703723523153325930939612270784761120338722149865079990882313442630543113362210736286124348841757860843896725760937704715690881183032734091626736462615541953701332710, 848),
   (40180606459379691725875354570915513451516140843262336763379693769704767504727515137442111612095539448864845454973327048004521771153081608469426014399884638458330841174672307316085890086230150892002608227906726289205621032611110066566560656067679381562247673708357952679746839794124643402672847449752712875362950747761530178783769321853823904205787142106192477266001515478529591377317199323790111858096426442856829004776899109801, 848),
   (1011526368532533074740125455368141845459535951031778174413267605753545400273542399231851208507292814521888456724549060784051995483346635558353577489797004048881523827772358287897788838270838795203796543354426921182840176689337651462977412903214914221884619342113225204905537559301284914209430837314737028539115754590927901875417390397795399682604693727097549071539677242132133016192112426777117570421168602780302464243932826046839, 848),
   (4001988403354217295897185315263185139771007627988928741632617499462594843470860507689234316564715729106938607315343373981250368406846928203554831034228509990449751780997361808682154652588523028843459779499509938404879854848066562630029441344340866403599868301352452086902785243494814482906215605995370202386149894477048405806863424456640860858896399353776770735693750941661547301180793052649495141066404073708540168875779151336226, 849),
   (10084917894269354755159050790020374199231573431786828398900278029362847640727217720341556548817709360783227913543754136016998394968965956516785167573276130367348792562890412130340954717560262788181851537243636404192916561592696385085884806645052694792189654840868855292908209466233810594668025448027928174534984073271551181697911382266020134835568796459162564243250582104057366171435360894967862177099050969719615568512010275, 856),
   (399398442654750886130539094463265876949146561273295088414935226446366965378391878667385584793158629764872473010071268723328786767003323434714772137216005297046885227743536708506479034328334598278577285994051091852807009513837042950476938246165218467079266856474974718272897967300782485394040317478337946198137759468809430899524969760772757913717860655506921719422236343977822420657843146654419615078427126556112308853802759303, 856),
   (10074832976375085400403891739230353825032341858355041570501377751333484793086490502621214992268891651422444685630210381880981396573996990560268382405702854236981443770327521718210613762842702525393669685706392767788723645031103688700798921838407642097397465186027986437615301256767576784073357422579900246360449089198279630516213470883754114700733227662703401679007331521953308805263925534072894314921951918749895952943498265411, 856),
   (399398442654750886130539094463265876949146561273295088414935226446366965378391878667385584793158629764872473010071268723328786767003323434714772137216005297046885227743536708506479034328334598278577285994051091852807009513837042950476938246165218467079266856474974718272897967300782485394040317478337946198137759468809430899524969760772757913717860655506921719422236343977822420657843146654419615078427126556112308853802759303355, 856)]

set_option maxHeartbeats 4000000 in
set_option maxRecDepth 20000 in
/-- Numerators of the Bernoulli numbers of even index (A000367.cpp 21-6021). -/
def a367 : List (Int × Nat) :=
  [(1, 0),
   (1, 0),
   (-1, 0),
   (1, 0),
   (-1, 0),
   (5, 0),
   (-691, 0),
   (7, 0),
   (-3617, 0),
   (43867, 0),
   (-174611, 0),
   (854513, 0),
   (-236364091, 0),
   (8553103, 0),
   (-23749461029, 0),
   (8615841276005, 0),
   (-7709321041217, 0),
   (2577687858367, 0),
   (-26315271553053477373, 0),
   (2929993913841559, 0),
   (-261082718496449122051, 0),
   (1520097643918070802691, 0),
   (-27833269579301024235023, 0),
   (596451111593912163277961, 0),
   (-5609403368997817686249127547, 0),
   (495057205241079648212477525, 0),
   (-801165718135489957347924991853, 0),
   (29149963634884862421418123812691, 0),
   (-2479392929313226753685415739663229, 0),
   (84483613348880041862046775994036021, 0),
   (-1215233140483755572040304994079820246041491, 0),
   (12300585434086858541953039857403386151, 0),
   (-106783830147866529886385444979142647942017, 0),
   (1472600022126335654051619428551932342241899101, 0),
   (-78773130858718728141909149208474606244347001, 0),
   (1505381347333367003803076567377857208511438160235, 0),
   (-5827954961669944110438277244641067365282488301844260429, 0),
   (34152417289221168014330073731472635186688307783087, 0),
   (-24655088825935372707687196040585199904365267828865801, 0),
   (414846365575400828295179035549542073492199375372400483487, 0),
   (-4603784299479457646935574969019046849794257872751288919656867, 0),
   (1677014149185145836823154509786269900207736027570253414881613, 0),
   (-2024576195935290360231131160111731009989917391198090877281083932477, 0),
   (660714619417678653573847847426261496277830686653388931761996983, 0),
   (-1311426488674017507995511424019311843345750275572028644296919890574047, 0),
   (1179057279021082799884123351249215083775254949669647116231545215727922535, 0),
   (-1295585948207537527989427828538576749659341483719435143023316326829946247, 0),
   (1220813806579744469607301679413201203958508415202696621436215105284649447, 0),
   (-211600449597266513097597728109824233673043954389060234150638733420050668349987259, 0),
   (67908260672905495624051117546403605607342195728504487509073961249992947058239, 0),
   (-94598037819122125295227433069493721872702841533066936133385696204311395415197247711, 0),
   (3204019410860907078243020782116241775491817197152717450679002501086861530836678158791, 0),
   (-319533631363830011287103352796174274671189606078272738327103470162849568365549721224053, 0),
   (36373903172617414408151820151593427169231298640581690038930816378281879873386202346572901, 0),
   (-3469342247847828789552088659323852541399766785760491146870005891371501266319724897592306597338057, 0),
   (7645992940484742892248134246724347500528752413412307906683593870759797606269585779977930217515, 0),
   (-2650879602155099713352597214685162014443151499192509896451788427680966756514875515366781203552600109, 0),
   (21737832319369163333310761086652991475721156679090831360806110114933605484234593650904188618562649, 0),
   (-309553916571842976912513458033841416869004128064329844245504045721008957524571968271388199595754752259, 0),
   (366963119969713111534947151585585006684606361080699204301059440676414485045806461889371776354517095799, 0),
   (-51507486535079109061843996857849983274095170353262675213092869167199297474922985358811329367077682677803282070131, 0),
   (49633666079262581912532637475990757438722790311060139770309311793150683214100431329033113678098037968564431, 0),
   (-95876775334247128750774903107542444620578830013297336819553512729358593354435944413631943610268472689094609001, 0),
   (5556330281949274850616324408918951380525567307126747246796782304333594286400508981287241419934529638692081513802696639, 0),
   (-267754707742548082886954405585282394779291459592551740629978686063357792734863530145362663093519862048495908453718017, 0),
   (1928215175136130915645299522271596435307611010164728458783733020528548622403504078595174411693893882739334735142562418015, 0),
   (-410951945846993378209020486523571938123258077870477502433469747962650070754704863812646392801863686694106805747335370312946831, 0),
   (264590171870717725633635737248879015151254525593168688411918554840667765591690540727987316391252434348664694639349484190167, 0),
   (-84290226343367405131287578060366193649336612397547435767189206912230442242628212786558235455817749737691517685781164837036649737, 0),
   (2694866548990880936043851683724113040849078494664282483862150893060478501559546243423633375693325757795709438325907154973590288136429, 0),
   (-3289490986435898803930699548851884006880537476931130981307467085162504802973618096693859598125274741604181467826651144393874696601946049, 0),
   (14731853280888589565870080442453214239804217023990642676194878997407546061581643106569966189211748270209483494554402556608073385149191, 0),
   (-3050244698373607565035155836901726357405007104256566761884191852434851033744761276392695669329626855965183503295793517411526056244431024612640493, 0),
   (4120570026280114871526113315907864026165545608808541153973817680034790262683524284855810008621905238290240143481403022987037271683989824863, 0),
   (-1691737145614018979865561095112166189607682852147301400816480675916957871178648433284821493606361235973346584667336181793937950344828557898347149, 0),
   (463365579389162741443284425811806264982233725425295799852299807325379315501572305760030594769688296308375193913787703707693010224101613904227979066275, 0),
   (-3737018141155108502105892888491282165837489531488932951768507127182409731328472084456653639812530140212355374618917309552824925858430886313795805601, 0),
   (10259718682038021051027794238379184461025738652460569233992776489750881337506863808448685054322627708245455888249006715516690124228801409697850408284121, 0),
   (-81718086083262628510756459753673452313595710396116467582152090596092548699138346942995509488284650803976836337164670494733866559829768848363506624334818961419869, 0),
   (171672676901153210072183083506103395137513922274029564150500135265308148197358551999205867870374013289728260984269623579880772408522396975250682773558018919, 0),
   (-4240860794203310376065563492361156949989398087086373214710625778458441940477839981850928830420029285687066701804645453159767402961229305942765784122421197736180867, 0),
   (1584451495144416428390934243279426140836596476080786316960222380784239380974799880364363647978168634590418215854419793716549388865905348534375629928732008786233507729, 0),
   (-20538064609143216265571979586692646837805331023148645068133372383930344948316600591203926388540940814833173322793804325084945094828524860626092013547281335356200073083, 0),
   (5734032969370860921631095311392645731505222358555208498573088911303001784652122964703205752709194193095246308611264121678834250704468082648313788124754168671815815821441, 0),
   (-13844828515176396081238346585063517228531109156984345249260453934317772754836791258987516540324983611569758649525983347408589045734176589270143058509026392246407576578281097477, 0),
   (195334207626637530414976779238462234481410337350988427215139995707346979124686918267688171536352650572535330369818176979951931477427594872783018749894699157917782460035894085, 0),
   (-11443702211333328447187179942991846613008046506032421731755258148665287832264931024781365962633301701773088470841621804328201008020129996955549467573217659587609679405537739509973, 0),
   (4166161554662042831884959593250717297395614318182561412048180684077407803317591270831194619293832107482426945655143357909807251852859279483176373435697607639883085093246499347128331, 0),
   (-1369347910486705707645621362512824332220360774476594348356938715366608044588614657557436131706543948464159947970464346070253278291989696390096800799614617317655510118710460076077638883999, 0),
   (1124251816617941290026484851206299982774720467712867275292043701618829826708395745459654170718363182143418314514085426692857018428614935412736063946853033094328968069656979232446257101741, 0),
   (-6173136454016248924640522272263470960199559328290655337530202055853397791747341312347030141906500993752700612233695954532816018207721731818225290076670213481102834647254685911917265818955932383093313, 0),
   (4277269279349192541137304400628629348327468135828402291661683018622451659989595510712915810436238721139546963558655260384328988773219688091443529626531335687951612545946030357929306651006711, 0),
   (-857321333523056180131194437347933216431403305730705359015465649285681432317514010686029079324479659634642384809061711319481020030715989009140595170556956196762318625529645723516532076273012244047, 0),
   (22258646098436968050639602221816385181596567918515338169946670500599612225742487595012775838387331550474751212260636163500086787417640903770807353228157478339547041472679880890292167353534100797481, 0),
   (-14158277750623758793309386870401397333112823632717478051426522029712001260747920789473711562165031101665618225654329210473605281619696918061316240634857984019071572591940586875558943580878119388321001, 0),
   (5411555842544259796131885546196787277987837486638756184149141588783989774511509608733429067517383750706299486822702171672522203106730993581242777825864203487238429479957280273093904025319950569633979493395, 0),
   (-346465752997582699690191405750952366871923192340955593486485715370392154894102000406980162521728492501917598012711402163530166516991115122131398542029056286959857727373568402417020319761912636411646719477318166587, 0),
   (2269186825161532962833665086968359967389321429297588337232986752409765414223476696863199759981611817660735753831323900456495253961837175924312108872915089534970310604331636484174526399721365966337809334021247, 0),
   (-62753135110461193672553106699893713603153054153311895305590639107017824640241378480484625554578576142115835788960865534532214560982925549798683762705231316611716668749347221458005671217067357943416524984438771831113, 0),
   (88527914861348004968400581010530565220544526400339548429439843908721196349579494069282285662653465989920237253162555666526385826449862863083834096823053048072002986184254693991336699593468906111158296442729034119206322233, 0),
   (-498384049428333414764928632140399662108495887457206674968055822617263669621523687568865802302210999132601412697613279391058654527145340515840099290478026350382802884371712359337984274122861159800280019110197888555893671151, 0),
   (2250525326187264545900714460628885135841050444551247116222631411681549780530233516069957534394574922579290608180427520318235621123686109474343887857944611842438698399885295153935574958275021715116120056995036417537079471, 0),
   (-110636644250856903590976481422794879200517231299540994715372334521128669716264196333811025709747746193210786820114369025849897345722531098042760530922656878891556664782168465095563132092311332073097630676251482491663634626858373, 0),
   (2525292668891404920279427026668969389456388249389889339455604316691573384284678293620100066924361693666444722338743839198221347931651916807651198800935942493038194104759967208073711284671045255047521429204396148980705984836743, 0),
   (-12407390668433023412711473483696990726334795896412761472587854072142800403373577087021298541061094633377354326966623278849423631924808044397822651135905640812063181221280972334965193338438214107578486417026806166184210160001817890901, 0),
   (4708181368529492614110644197951837317202610608341257204206693195241245204360822875910613010433572133227831741097261618833206537519198885812254347219150482005543422997225440204041473518187636442241332621804718967775203938403965710395632762155, 0),
   (-1856110669947388268389361040689764027464160460436671923253131176853224087741924378432403442710398247642246902212818749685974336641529240178398124235555437625251481044526024910356131819016670047949661636539964662370375622630863327168696307, 0),
   (4005748930070152861935826766476856180706477227448622268042052745245798242539770546339789899546160341590069109467023517085578618986055969187202731878271685432460708841118506310943865592568791360294244451765746911808994482063783730693703607, 0),
   (-11993122770108617858536443322964878003618156069559794803117809279608039120818829088000103355036592864877954563564831932363414886811786054601318517206937549605059298307895591515771731031691422489377098686236263367916404512751010916862894129855138281961, 0),
   (5646413644023523531472659729552574911763686780871700375627426663366507837122353997075891736706811337698248660838754243486778190331522785903661556458651175061469825204821206611273990250663647381261360659950519735730925202117606150672170127523599, 0),
   (-8717064809960074651332043679796544474420053189621803209941154764877242575579617540185166306094852502223738126111951612525627910517501081576202264770178546608710937474005742969950212404955732473198451623024108934373488641161751158901712323446768306053, 0),
   (13368053158552172665210852539359893340369870651951497976111882891296650008003955172160792457229376320993686817755409436399268291095350295968657381088168219133490277914269064723832062615431730061224649980566693258603099340996988542301914519271322675688591, 0),
   (-3018240015081392087620978688311925380399983229633120268872695911807562982111154053235820050168829922189401964755775948260724401542319799566237745986245598102255191922935742610508280966462644022540839619861091049093129359799053781543195492373882916779852781709, 0),
   (3168221108903401670436878558215734893322849540781208738796672473984272484396317849596978630272031342024194689871467916186898192771267438982228710525079886956295106197431401217357893460897221381410667385636049264583380749631776691121592016493432807733153743581, 0),
   (-1906502909997888166123201923177385833567729039151413143876271870599057704445939156075718972624235764657102074902610737729027517674632609562387841658709266014329005407533521950744449109807215808770201247724932231495252981632908042371307965561986133763291349835081839, 0),
   (12620737044909818561832856090355555624016887319605261762997689571062646649745107532482632213152948299491122977690702642386377706799989565320538433072623252159464115918057294711396625436506736041542403370025258477205101808063594056759977272469883621048184279331863155, 0),
   (-2277782962749544647786193093844710000584561145527861043594866852071596440076587235747852022645695523676561694856919437156369375152041285055935622032497285897151359345040171955786899011718891877065760345722163063921177723102631428767500963315657655779698470644544064472947, 0),
   (480867224771001697116513683699011649496855159878152931805742068517626950204279499281932407966997815888727039144001177194783700618900740782637516562256421883686495287564849123342843286211825800198337962453448529082007644439295666002669973893196613894216505936316966183107269, 0),
   (-321467133590936589398380572003196190798000628347443663674019204361034039315014370869884972981404460888272855773233080186485230316544246541168364468343631969225480324799028067015621769939718443419712110857965409179947456994970687005134042835903494172569465751671057323145801, 0),
   (21954828084819816230623427376391154946628510524415478471365831649487269438565442138452375719697629394886161086199009071745032148355699097673730377547354631757000924688032674454208386076360699273002129330161098228962653466112032300056534380609136268347425707537340996253935261001, 0),
   (-212191008579182060478563837945461872287372869333130175188325135660897759482730035448146388858205966593247205572842356279587190846758925659038643395344396334821348861518596112373605365460921821915409949436456394757252173113308288776951844012432992719925522001911419529928297005743854184672707, 0),
   (4535049728315239205021018362829154800039522502549714840841943960634084990270225535043892135549408608572877513963384530325758104248133124392959997485849004663162061065909846598215984547677506961593292880902830325868627515047168286738527241360778218692535254144583771935549805772798793, 0),
   (-1480677868678810347062135814574727890490996459903153909612611791768134015908900253197632543925157559965099005581639883558125985134242978146873558628010545299879178299856929100217178891524159543673803785481607540954533057560554704283718320006046424881681934129216249889269701182688055001, 0),
   (262668605206102118430195944953058387315319589613263079853189811674338644589939356676047394737425651989092115424635212785341601958591806782599345416064945113338168378810138043832891536358769753916174695061208903056552776976154338169779827414504134808495078925108569042616724875466536400029203, 0),
   (-3507445546375253318342667741949651253516986113349672180095468758145505921133172244240023419466113277413785800736682458966212429373095894934752041434119711352215164597094886530278429206637066302031501412499166263642447542289785723225064437740655097573160922291075175522551466276032634749948001, 0),
   (3053985414762198703102020975667535181880294373982570358384262712216099013630127381226064671248970168701164841859177635139561220373102316273710980757409295039231697360536736113380473515993580188204966808323201772081668695321316425977503713933894934399351348240918411922863059423248058823372368106375, 0),
   (-89774288871630307843644520580598652632613559409413344033893019938898862113876440183943307724290509165539815764354254584162176909463971675189351699717189454959415964995262823025743004001915975128242680213612581748367743077774468104545056300803334120339537905702856877606246855867891786763741486735368783092237, 0),
   (2884759276650094186013272224259584433367802183845217969121665253431996536437413850716488026971480747022580182931940812035472752343853999483816456012957551120812115224018480617695398681102870535795278832047330709610952952566962354787854087985127629191094880078635434933391568643930279007460403102076327, 0),
   (-104203435297641800915507592803138769896333127491490532929531166632958450572751929026080533456531382568746630428805839898606131705503722712567379172835813497582706763790263297372586804372654090271412733654409742029405259156130663560412599913831518338400385290760913773448329773518728092595019422753511174189569, 0),
   (56081693586889462275051589447484617682656486262465693822181172785524218338951641908717980184709547885060218908068568000776767834360070429300833879662707069272458173745883316346369196270761641325176838738153606175963665383216626724969370509650128327157862121275587666040290047452303859942885949047756404247033, 0),
   (-5218507479961513801890596392421261361036935624312258325065379143295948300812040703848766095836974598734762472300638625802884257082786883956679824964010841565051175167717451747328911935282639583972372470105587187736495055501208701522099921363239317373617854217050435670713936357978555246779460902210809009009539232173, 0),
   (6225500408881102797510043328034969466304425964851480796588968345345616249056035479080489691323529597769377127237910326626106353639640430862662758276037155818313797361926063056784629357346246050085674910484712331211955483400507386944492614175497512823803191508029088188458205305675244351279445756172428826335261196513, 0),
   (-2597900408162896058710572658949818524468219266931291835479959418094890120803707468900281325124704535527442908101022615930505212028093980003061941163493997948367473301269937152541190254678821414979800759785215240308773060568770563333752614741579673909061322574414039421772773951907381124389083123642187877106727324831409104559, 0),
   (74333782054653889423743469213152655799143173104421681719953140280099539295673341397636592724713785397334372991707306538931885461890982390991361955644690371434518008626267056713898856350449471518770634624568188698734199687848634136577815884007651660546155376602651878199847336975669075705029220024942988801596540479832623, 0),
   (-181215287752963297591649028858266281596159320543301504003425598637697061538040522696126018237983659329700516696739148841351912957174525785315414144429136591554131215700560325949733256954674813149699783016318415338094395743152932542723256830883071638325957369194991055197776850603497527503600109515880553950890416293966947553269, 0),
   (3046520935696995573515824242272701117754774305790084108344788704634810391537752246673386049133783821395486096239148415641722199623177956366799133314531041402021345562799254459886856571341036470447536143349353694309187363616222605848012490292828963830868021774140963898080446961958927794750526681977409210580806334902707423302910890705, 0),
   (-5389479287019828859012200442343326192355509012382167997444221939499202340581932428533725140323939479047999949436682248001244967154707104896269136682582392582110484972339408510822230035412430172890925658230152084954903826143390588854318458185729506889417244891371385482660658834892925089584501833253476537744400283864408173645832802729, 0),
   (876921640102601760383168273082801324788039055564836901409234298002253995782034121007322766508391364331313364222035613918206397636790569250311165509441010945170696883786500399759308075144882184008248023432975450281978336106603716700929424210717924897570827498252893067062775490058563356806930680935200945326351681714440032862515566687, 0),
   (-1388182772753480224524259543538426023294781120119840766760993950456297256537536762358314128425435909635398077811882539199662711471185655335807263675649242817349083277475519035786895107126764049407549359856712249235123586468592541328115099760851178135792262280438168965402774928136789551166963401124472782522202058296880872854126156007513528607131, 0),
   (3288574272791325983707258196648395370596305758341699742238893225440550539879910098002426164478935667759666907669638986616709137799200377160559516125812795457124992507785560266265469172399329113247421069765604730822849303184464007727659407021486798188927253139176046166778181472669994161900278671855691024038916704559966546186751742476372279, 0),
   (-8490228242595311199119920565849009760217791023572798918266374350550246366225435144540895862924269878096526376888988896473279190955432566511173411205746712397692187887537779437718173050158951105924254322875775498449791436769311967741327489636985694874281460516082075289295724305512800386456299241907049270636679469815489106102786158831873003971980149529, 0),
   (25875593499348128833220857256544133843109199942629172661571575831896009002717379314993110538912888759932261638883397790531299585084426973156913779915781848556311555818927755071422637872741239146696501724664788565419251002500248036396312656297993421996811407029386847063439782311617981818206546311041142991312322619717261878315979033851316268092742291, 0),
   (-132959963583526612558423182997702578242047892089625754241387587021938995020766563989990185987109982064786136276402406795608981540644133005568845598733701027267134930895872207756078937107416605123323092749911180763524271940975157312568091937739185681066178901105822385739566191012805835839265694429000135104051173197039224461050364993416415448157657001, 0),
   (1262786340764743836543650366374180273258073609841543441787781675688541881984249268360325012510167918286412665710785332495002470256724535451201518584261363284544626088778140281353574806840036456927404244048497506339393258324386379574048562781825209799628261527492591555049229691481538713081331723845462120745928641410668923052992096071568118182416749081409, 0),
   (-4426158122015997656918081228667589801499808940970897924307086870252646875948841652238923933674489065786806672342321537012751674084821846458685429618183214525289276658012594349154796284960120596423811831259041410965661717709958659062147534583171671141655182016580199364485449629732438469542501153689517957906763036169880300563526920600913900347892060168169080524563821, 0),
   (158378960459933745353732673983377704622086418682000111407542005580986544145352715435649528631197645211762019722767661122078958064217177336225880988737955740461066476486097551548991955116319546315427449493825430704787375985685635337262886136570504412827663590990198163434342208367501561777230870660164068668650416176368657029205310526817730948015526849382859712055, 0),
   (-769496271232217048566454403451119653773906354892060893481293713784107951847019857310739767770463076516560575249619621659718985646126964039659981825577646225301189082287264198134787013538174178383958494473734277012586809351930781277345290942985827690026019144748986116319143448962997698665018791994064217597704711709748695678908604180272686662449493086793580970828093, 0),
   (344977368185637380304333898730614153996525419281986770522385915720139215554847760949870834982202303432587625997234795118134923343663265548204594792841811439303451011251437993865656175552484850145014444202587617378736472160288579064961864004275382498994164923679644150818450558302750885234058860046684381556954878962153088786251490404112306387375170114820733240249707147, 0),
   (-1888575590158495996440108433926788958859450449505827069108529221911737605491094242128180304966356165162290173103044092702582217959772178183606221416867140355106476799094653551123469827906281690228047604677838808485752658196964935031379587556530427680306537879720377479310817318584744711522453387072627648438830200285728320936098194745411999104991803838665658699650727659349, 0),
   (5683175611528696607080062478072501820703250802520963611339740016328084145085898175251616359343168595858108624167762131679681416977895536025003761007598913177279789271071880600643885302907670572288368816385439218707793725555126269377090645484013184046265389329719449523663221529092764894703813815177897980268745011893371899061378940560801507189664711567121796987700152153839, 0),
   (-1863878995204859011995045341848156066182191846635905937518715320655775958174360523134990756922303410810482600528769479642021001218415879006164302955370460829146434807964717737195356935144151583424833154250047747433575584999029126775186293388721514970183351129809976971603227633930434923843984829580311593372565398574762880028289167635570012415606941367995702212211519561707046505473575241, 0),
   (29732914652005326308069038299046877228165947489285775398232775554326821654997284254954541436759755619186929818878962419179787160694148360451817997811323189321730570436847238527392204080083670713746104123180927363450365552833743396887002966884296848913481132785586683120732369858597153076261127975076406564459518695821788635361711463230165952857117226399909961673058570176834883271, 0),
   (-5896752302971586952817880137553548037522952101385717862219869597959540714708235406233632122536677446426246295692119684486036889235399687553979484886254426933587637080451003789769961323298135257953657891721726854085498886402779031921701364180427128346719739542203363106920603436185256970882544947794042043194815113693600814746189709447821507079960920412101317160689806936226622681106017, 0),
   (689735739192864790938869842200448522491622174065530181755219067505817267965189978776569968680399983089600630968341102178380777713630583306140103562669027424552384203113812510243331805627699809267240054344772443480095752572066698167737729190346148297831547431732607091731942172905658944645576233950351675859756367833238423434368779109181349635099892383418900862720397266277623080279813067604999, 0),
   (-1310028313878567907114692495908315703121191755911131111984360268010339291958527789632281425987720420051304810543373657881574797353695997625625576992435250954115647419075544944736054854015711074248873686155373327776946348644567049129984144807198780234107278733859628145334731952115798551768101817753443736023659080348249001450368140437083583099127029870537678245450148711191680759214684176445667, 0),
   (3260606235276851195099437047707916012280054709370077715052312896011476347066426313756906147929976324639617487079038182718315850586912998681890040154101217023601746358548442139356881761209491879344448144235471024519916730280314406401197057752850694124801781598205133338269426259564611182358074475139266646779460335469700559434884540406485299632013344690352700850048935613677493364152601347478976955, 0),
   (-219310221923496085124921823808404575155215719519880743817262187359846676808720933963496193287320441312135479981243085410780329920552595746251706979452929554249409283208988310305531179583355242953344731240610852110199480347842183280905881606393786883347661578747110380713468900860626627458517735797820729101052113795399477516376330508889102106163067720003973339359314302749857453315620772706780505888813811597, 0),
   (5831963211655227469096364047000879785191356939385161602680269994879257080042651495531334620369899431331189755049833242684170073167978643108706019166324688447112227778757784415956624614457808484212568132108937476630344240535741105415692911032767001030027558118855855057952089777910853586423077582781831060554157175555095233630076901455631073919888020711465283697536929732899568769525385745975473155407, 0),
   (-23306762036180954707239902303733182709978468580325093149239040051634149745258544596562134540960231525935441270015799599621135682414015382311861534597843756730857227145200622246509066032795288017634942726754909458234645264430702930529842456653080378544365215066466596986953601385998432554535709196917229350478449221406496506432167664369239478872974247912601100426306339312275565475595669640092216631914518917, 0),
   (28122967090195287981055019523746421026174611154606607881410834553821571195600077156388139504050817072318352135336014937133504488344591033637378875175488860842142200215544952457462251551728305545862703146471647483394138505742989863336231595764600339418866218322681285266901817977284569573044604541872422517736195703069383015638214571378546092320911382385141634160156861783095114673655212399723765743717305197851, 0),
   (-3721822981147963543473628721718160389675395897437503779226807860482566691214705959016239951890193486758232537597591642279654459920857716018601998378015710967458002507660860624568924448328452560808376796224541899685756821793434321138838512925307216420554703983171171540795387100799809353390519107647717976213032752752815159815739322121041527686676774334782328158773314452206678687770745486976844581551304048486668867, 0),
   (11947011202513683767723104489271471097868501873399758887514336934592822829976646702161909309680237660201998669294617552009638464244432709441651377979627696796385888263305915811924616794303093449550416640107641304231571552322204363229110497299236034396583681906657985198177302972578027688117382447661848083476283296893356637990999976607059658190271101386708876477455968880271181353449021120174672279118531405266405457, 0),
   (-382939382669485144236796360534598641464412319414905512671323836952119988303258437755616398460277596589929462002816094820950422909819560424366194985971708755054074994120611502054649000917588470030719955157410740785540242420768677515572657924549702183455169967855380465117709578624959367223624074442219555371133295420494239988387932905159666464887105549892633441103312599531087315128477196230991623750781378887963394244733, 7),
   (180838307251539286213037013563537200013162679309314888077928764992882029376850859270752105562802770827616582970567083806403106857452761293079907898157867679112901521943879321373403686342611036062390075785581242602354115977490536551875669202650821380366878981957023415109458621164019663349961706394166147086047956000347487542767906175017384350968552835315182614668440553520650493613602679603036528823130179729566364761250, 1),
   (-203892095573216670456354467587153929853466454883234459494041921103100468624488798012999072283348190699657499500627228377298955225171164533952982467467229572138744498976519709435662568627725875988752906388406344172946446669530481715487975393601336024481447017125531286042005245945659596667739616513230190662881830774445494493538883492510837067859273549449481241143880001310044222670488780473605710008450675716123843756117, 7),
   (164507402617612014882865140866663413858444125808139497240001550383088701887207196581198764512079310327480308111899113384034952018799178539400077783445223543411867488322718098218284092982079687391392270146095981067032374720432289322985638009843968659437557957583690829548884373028665004080971091630185556556976955941146881924211415993136891897784276903596652562839482572912454645567415562645581833303126806752992741294727, 17),
   (-314047405731393870136073238990607884611297344032678777408390794685221172163370836250617251070663470292244709701778302907974571048210601705343631482766511605716990948810491808036604827336445912786362245344844818508147544202737098212011999082097604691915678402522477068760758560907812094567642327670866884913570874699009066923429233360649281797245463707911099569748007893039517095998922463865829612970953495017491550740260, 14),
   (105959450712139358561614326750678748291627849550191512662380413294068107407247886566713525350838198788534238121678429166419664041236233803606051817627731575939553790154021616196778501189528768078400811107009317850171384096998455082824610437919969197421385189475358775596537026092374519645052975059595487888618614275545703577191947383711761849232715855501325445057452043875112980841528855594013764288125280661970576229406, 15),
   (-110968358518556750910569006059104612436322304793290197896476208195051113971187304256671882613201063543710887491006989203213468862095728086421327649757926706375373160032479060881414285316805050049998250096629298691714712337731033133063244894833650574221421335477496494331790029997128928883270452912343595756835759921082499027715633187483508227173954421007445739076452215234463953952029377612275096135644427285378787750547, 30),
   (871667613876289947152259213998641324359438367113245978510277002562210922288209180150151793852558736029189876363096736208315035600167649273464678134646229708161579214485318416128870291425640987624153304026736765522468963515580422620761261195314156252082303726799452238319359220112879725078451979791840912313059346932550771416018721541922207119333620480831014488368439858212426770461809324187079997350701358985200574078188, 21),
   (-139969199374294532188729693702577000000465664934371179035889932037927222630615161871008568258760858093560212970955512057983700284904139662988796471588843837914664871339017278834524915750717069973487760152722966363103180527139199261072959205960570607504345672675033426810959288741490491658133099197637151741354653719448795255505120643394167214213806837785207626077991226383344774422283805854628774864645574223075309564130, 27),
   (999866869350557363722458479004395830847953169240152118030482972984856254139343285563059710426142001310818604300278555911104883557186325333153917124330048368249458087059040520529706556642732809436335612822769043297715578151918469336944179483860946506334004186007324467864842978559250174108263899703085692274142353761805113570952308838426945093917953996642662776561930695988488695006166233701104386823791719249365863288963, 30),
   (-194356679464122366000063557526803181773780189986865586930470468471859228425694058504786433266248071070241357852997996746858465840302305980083294616549646400625576028335211891585990306706530443024292005212507923297176295319683924222692899007109181484350605033720455977537412753391449552230076184112225466977758107807474464786617907430190875882986119938092248435594124373282872567798564823377548279080286015910416480439899, 35),
   (235748150954047015750061383426778147376111170021891688845146255881245910883215587004762925614952663164217507306817544268998903832767678874032674806866276762686859664936770230725545347704885864836420622598430157374668204179638548021664582329680823828362162120638448973125051055526263788305040144520884339262399972582801116202897933606321412120878779459660750339386877371328290404824384630449131038276803863555856827022912, 38),
   (-194695824492640851981992854003531231979402523115431228384694144553383388568488418593866335974929352892263135137988528832054474655855887008467102754354246526880124562963827309084649001469648129305817294522557324992018132173645306262902298168843323357732912745992876511360630017664883210987513988845498732688663688098846587841061988223759678115238048937072429525779210433250369658282537307704808652558394119817374908458732, 46),
   (502172089109637973079905157308517324166048351810351159422375337574332573514046742139861365117790762795398322755462389540876498686325519933386024542998456467504352201616875674226702066988781736776780983675270711591178536297327588046501114273115924942240089195877277170211145955479537604561876530663522061491492548171664129861255728492613537859772665546205365872403842851465588616941966018356565181922169705164734493393477, 45),
   (-123595612458163473336102111542838674764831835495331502431774135351050074096606458390189947949855899933224956382090454659506523733852842909886351324966274684823091833542355636103776512914842749831251392589846063826895163366115470020631076054800071496634622909233303706997995125130120515859762839469193960001284685791277467069230539953616534532549898448827387071275667857164787765007253139087944551495091418632200084873394, 54),
   (445869588001267867904524148334517372764852692176040414939578321538477487766910195634438758738916857301912257921598085081444059552783094118393374017592783961746096241926858841239939685011047671843464779390679038465124395229271596498987619658165252867917288543464856867274202752925695113115455877050528889889691400313300031512006014327098936138027297016850729686810907035545615256137867617945870698810042470808115312986101, 50),
   (-182495206046873904911888730195578392542742158189419165572201483058631713239993286310730007153547123494428248048774730112084356479245773939761215641940703917905251697491289828281320771469027807218413878501627758624421999344748799396051504258838307066367023610840523355688698436281986262212424940765387676142291868035163531302631798346492422887879603145311495645065447520976145138478990206297767011150982625525621516299935, 56),
   (236981464930893504322802139851626699592628411111024705468714562373236936184359114116421846576636459712777920335379063477621836359011586413752593417899197603105681460352445932378792454366478006099883273862981279429149811312127273076915557845317216232626859123747826538028989342009113243530964905487060439628524659079587516495492222868853393802686849471730531810057511214889218773379759921377350465287299000379375481876741, 59),
   (-778920925563520089023277887716919839298513486135455047496265119151473505464734957690937635048394537294415972122421086877478533967411348994474171388256074145035237797802154822761617528172700015731068657547092679836095543042179681364991968425138238530710252585175316218097390905698054739393609117605669741881868029805237983772228322424502491583995084065878787104609542382045050185577023575049548616444750140539582676309391, 75),
   (715341102258098940319912343996707811685084551356244645540933308810413928160891724298276851619649551829973697033587181069271380692407132317161739109284011945227649892560360729074672778640720680874112214109997197387525352062913504682830983772725393570468326491083187300331970668449041594296073065276692887678729691114916079642579900288026881432235979137544823640729868705093774645241454622836223176904124630526882732099120, 63),
   (-183994704284560509080143331178864945957306510140556362887227174299509178095001362725571174029770528390421056935974046932576176342016005988953597082133027382068622428496069759470765394837773410466578603762032969931215393008151616936600275278502730815274946735504403576344305962086433603582043712329571511656576075090172532431529161167197123508432861722744879905078401240307548330119307218087296592071881654022732677719089, 71),
   (208132436796701974026578645947003622483331056287355745054077487521943292103633640299040454986839202747859043917118863682964912263420747609368917895299528283537128619646155369384340380796319852058383198301591487844668907655774787107504112390867072793141133404235025281510895382567746572928950673725604338682612859326696437844619128850349843527450121343248512668807180114664932080245723088399660184314807010670380724658487, 74),
   (-110725230879881321879568054811797526267115166186538309029826133137308115277324207270571040263441920262386242076342056949047866353534514266980024412370434220187359560062050493440457221035440089226046696014690219122751069156630764313360960761587856716000690131098571105908045239988081704908481660126863809763243757816063349431021332536632587298653399772920535661074013239670953426088742833252653499763654446938447050846790, 78),
   (105436468101926712183015966237342027981822548065378183914917892056155580681320203026900330529498978410421348989042633250982811992039971268918718464971168941583528038472099497987423279686033847352373713634524328902029631237087627685630315840422522565122391280523543475578415123567558920642396486080328677738780748081096335514622972327452414694848941788411853785238697682675444724646915348071662104156310859630089274744685, 79),
   (-568689887479725062546595969356838834637165735244271465973763661719818022334876305372616004525159281805027852148201245862326874603338220561904516781074854464001778774464175567157110320552304558542405958683886544510802026750477442449914161921155240250848138122279301631232871455887057274294567790829683908770938979791609653239059931957062789854858964405956367751238476793459108450467141633013252245207107663259368956008194, 86),
   (272335219988441174665711644416817037788222316888226564189208490175239816964949116186510825827071430823770205468882164078844664808347805830968230876961416199262466469270666791566377066677591980435489655129480366457251098317170822303846655426605965362124131884076377822163533931299954525682197137509183234465716344628166664461061213432417726255707234519256021790376040458134340655641181955634260392208809071001560270930905, 86),
   (-211448863259688474211368626409336057907308780651582311178948123307648749408172327096552874492037769749109885765035616618002492789913191133095823352815926474424950305532082585483413393187641974611474328489916863382427110986549311443047251485414372153709953470517135177735029061691740899442592315104849351444284380910672661312423942011226708882527720648564239583723740826159706855973869917371798443494955057001422391239030, 89),
   (420215232484149085158219849173415405489891098922983569241602779548148546741181251689236609534861967333749055028042598969140909285617702784689342787873864063319780937598384842703648747867883936235575961080852921211093650147700809742931981752992799377621501168553326143241007779172845839435134322891281282911736199769779343344890849053169766072589382951964445413996731875824713537702544435217008916655393980145141973517955, 100),
   (-585016197049150516429606755440285431916223316191798033687181061470667150509536113671258201054717866226570169976401850360230659699699301963057743166370714339259000981058060988677132844370590538962044247092297537672905410985648312911796535010450651733583075122028847986584025427113069993778348629306554503407744980050377057969061170508810412927919930789637438916383763636475443274955653725558963454824998976936559504337388, 99),
   (786319796092893450554695011193950083791180965137235896345688770047999272024958639459862838236087144698807134862378170374149790360310062353830250324762620839643879732438980608407229360095903011655438122640893141975156888387279010186446870533894352899515156267403392087586823750614165971959517592904586972986027701098184536659472888737489727005807698646495449468172070719040780634549729545772084639275300568570302009860577, 101),
   (-110754162756402172153014550168566972984876925083693264831143127544432717811904992984077240231351850620045442158975752476209437945003921292257289655906112174208294630503691959241009346814626779961417257948400146389011140929210993075671069409245612465372014808443841918963732454979635619634196765514065569765406021995951240364020270070411437377187081353045931837302854850452592893523482298799136698133585855070465304605235, 111),
   (287911488318660962082672353206827610413984544982589401994853067608661834988323324513908466341692945876059703666741371797853002147214826407059728607061685789318380725915877198087771183697336447022728991956882235888659007323457891007577518406036718857731183261488700561235440006367243962998446573535822653586553291070509424213270063526409629620505237062683825267741874980151807766428939026282896558562307089700264076891048, 106),
   (-212991147880947573971537067247145364132920777752220091972964875702763685497676684837399056547596297942897220590885743914743943841163888423934721987798908457928357833682090724030701668183056449929356340959493890058920157975990605144754003513006656860950276684281585201054902456125782263083320640198748322382966038588499917419898854540922538896608927544367596359045207255197716227915678066256365685379089962109119824754092, 113),
   (103955441220430406099905047184293587166423823612952503105062119790467319025206181630607678300465219261613352777472349374939446154581613775167669116563736394493048382631903692742255314133010448329629034247650705334420681764871912900141730117973018290949463660679599557615656051706023584759269518272911302323897521884391299653877954374764999935825260459008934511892125710463944591323621114902453821635861655611589968733716, 121),
   (-466695632025751781692648017848987870271938714890023252252791233979618871440977666385636214171998050287597080694576271293718014447588767799255817579948130158601920206002818530705631143268731979985413534024106223139525991962930549063535423989009021707255789079152868947926798749669926359814617149589320301348557522754717597013177160289456851649598661303715186366657739067076516593342256474616899699441312548496925107118941, 121),
   (640808912350356174378073333715330795309912947431801296035514496305956924194050478724997308276302531933458844716623312895516343306208024932183790655351844102967791249508631724180677304236114904329953319103713608769803340518450516179464461284806009110502342220743568034682133273443656465906102058462073733441986152637932219455262690498783033366796807895595451968974170018589790265173871732540219203496470134837096254721957, 120),
   (-988721621966561148765332193626328913917748393420050004369569387264811916954171227259914359919204850037848865164209491514082744037508971240530860484708097053877150205636763184912072230284654133188476251192712353503522179553028584279607562867103486123224635715566628419901003148442704056714596051123460682634021450708898416970075304559322826006913140287024163107231474177559429458771319865998406103691924416594616474259503, 137),
   (101619003132155663199534215913886374023281804253492110488166989803190728169035211453457262211630841056114503434432211375276907228563832097081424714523428753465396668635584828350191568047516691169323227550857214608779387901814143411744215836301698022484098522147248019397667016267076622299047970087797064375788743369973032382181165739687722169700364895613737474076301103620208218196808542089296071120138556683484262445970, 128),
   (-637836392102899987100889736245882339465660750081315394597463772253285515127634023302789056061509659428612186547534409798551352250807515994557623033743228013767844748759035357201470841469676199651664804361663249151386523131611584591474384405795632554144028686794686434437254523165897512578873435193473769624127965433533785103292276403259603548004343727774698904484600174619641521274110076496631988736911883028507765498511, 140),
   (117423983553999455219049751318236053503238758360505726000772200488305910255795814470494067428749230422624721284905998983391025044512592203212766543638823953866169848798193251300057957776699932592960622329147266422457617829171374287272312763285399416954358440327018623988988393431176607780378714053603130960577262099472015817743248125473787750109518440297265691774517522666191313087896013861873084074195816378819585090156, 136),
   (-345903891842694980732015048493395694585324315959535041305307560112247052191695566497382995350601999842238087216796856606726685740102667031018401379661128901588441213462389670552655863377205636569450769738960088669615401516086233714003219411111793857968115791408542448654532635534101776458785227188431801015221049888308981666803079099223971749945727516451381541469207235665390844565364250294439462303313140081224224630514, 139),
   (170003857441113621055924711218201581479060969973774823543550655221015298985029713903581691625806778175064153013683952617568923683195904825491671562597778394848940698100060988046881674679194048284424046096930240621809667552628402886187489064670995742803216624905991737595831860741767548013712391467620520309900241319253287943675129083092747241525094828376937402590205346662298390862562643436019735148452642958172300132516, 144),
   (-318268821678472690367952641359970352613261067423935316312625135469516217395381294839128714629790864646122696311597875108313589370510137848068555516473715235682332307763080949262669131513778719256477203343901233423138101383364932937892769246391274438233860145145026828827167093338865880475567374296304277379788912502912121648574410660679529719349753329363675265830688348759824744153091222213715437509402585792674523604891, 155),
   (470023752335086806154925750228745182505802165953221881187293885817790572703578909097576609259612048650107641573576773396406794198010755293758414058342000758597101515394269857927227651139631987730762330387103053323761608332245274551978437543782423306631259023542333183530627992031636037343661358260558335452109436639721004220128711197262809721530825527742820153163101076758847415912389873295224320701249956855854697941669, 152),
   (-110407438267904044932245764047490655956467403301201804055276169397519662339870126339584313457491906311197933497900168985674580179143184483519288034989721728829351302082076181653629234077289541324361645793146743962432061954532467939669342647947267041500549169372930162989091086595292864023659159340080525817986142928310878267738085379972925255016997550744184165687877987192200980757565927890596616420003756118628433587459, 154),
   (830966056816864165219563221691255172504816245427194942775778460297239574008254673723276280782798993878568376502765275874049468633347470545478154168815827272595416765071482194437630416545142455883532025709379623773918422191234979559992742090527602639659473260751398640580101548381014113971979542275363074811349527026580264739170503267212543977947471780118824749687917395812884246155157646166836076504356150965742303158590, 162),
   (-188406321746538358649682325835415560844246076544492383633508163564547804099213154896691530426404235719045836154467076874273276820185402062902437417930461531409317886771692493646762594583022318853261208951495220104317251070715910634256272720254460591674640338146619966553429024046780204638986663636233667086370843997297255922717850093318626963167296125792455986155618131625076654483870664013433299998182435119621095832650, 164),
   (177948829071244383748461224300047737954439245366393998814954157666837290036442548237545354559654248140762601235025124016956688571054331709927511568833209554328300942088687575803158770352778902946800416194092364129368960809507136675944946524355529271391513095831833834095214141413201872443533465259338559071060276534081662109185490926535115165429017697889522123426359409741271701359896235732490827288153220352311977810488, 168),
   (-612691444939176646312327310228465298137050924839197112681610927582146609697680166934823871036164771257817975797941476199244006723291733516405510792078036326294278263348200699997135059121367110912233175112208137368839133519462520009910064384324451424638323174387328225828789233634042694073678158723064499570405433500399842594546962754568562320055097032453408040406548453529995338633728100927153752800133917964469919540488, 184),
   (370417641649773203811105792421530317349989434553176611030631322780037740921920903496806496686319103807921979015270437429241936687918394087764863038019578527638851481686403847480960464641545840936004289242306394237365086284210791291343989458767793541220855587660095196948191905734357956461535121861354233393019487098593606068830314737953863466706245485662337370451037774820208643752612698330292374600196793018724057118532, 171),
   (-900309704889057549412703055487959300250691255243632314995356843469409197586598181836315775665695203810817228257767800995208832223406044287944134381117528642679552487333128252142131375359121793415508211496537834167452784284536412724329064314223405159310288664698829339128075019109308684058290006604682848685269913509631592635991061291910848588896849609801431590823098722376633326783362640890294817117428008250878447534568, 177),
   (540225378036603052990346199510807018158832443697480204250735647980528769665424434313990872758579010452107244811015945468601296416203994681028077935333710904631550194393763004260011111100825548574063403788483396960128246802587868245758939531860810951947380313150279879015996990630764008503734609295336446716698563835417186829599083092840489872534295498661581692604738992833247348405554718444514715819066290814050483578754, 179),
   (-178631832601908536171004558032761096296603555642069337022466657948224618220000462860819307447255038425012723042570990636159393162920489265496945881843415223197089039558399046230412722134470564185454526546692168928856644009854678892565378884116563496393911506002791803756925372034984042436244890477408434546164564440123159575118382731762120541349243900708792397436983071602078285813659425066659156365690242457074462226267, 183),
   (791452428000395052990463674367408774641299277169449382275797418384963666743647706199968141726577699871535620647877271680371011363641725875016441804003162706216814077280766553803448788712737779201122868425785256450531121303233116813021906603098871081632396261587905577208955217566658493203885877312418398060846091120975165767009344894679683148265158035296420969642632188332444968324025169811975004853721487927435823390090, 189),
   (-147505779907070690908926406436278903967905880575979328703613127976053398772185553182904836979275336476471526202077867053127871958689858345959379267581076922082984033386036959892312151676925212239146594434616886511800434731226005278346189290525699807735955670609548302870777798193704759001480201366969220331449776023162671623775658966419615822267535710003792590494380070037142639987869543490016560432887577451792307471082, 203),
   (374777948723013249190078483967036070262196995319721004950125135841911814198619011549356410270085469095562024553680419264421054828395920348232957623922946064229211025115849670614254096564246170554453262384472539133699367436058609043489926484940433001535924350976694798538284096205775504449181934303253795061219432435260009742614505900088509170788373024679338732454965657850652041060078316582665978147857775596653790453929, 193),
   (-900243602303872329265137769673233267946975216990147426234959786986060151151172751639380364499251949168487224779118186396491935860170406603364241907178142227791955763742401028085951157594491451096283585992115113068460460271116279766996042964660386482546289139684757837536311357656096827258440550754675128600333196327419024011095140970691476996702539457631890804743573819245551740226370394323379320075679673600131892254846, 197),
   (268255361246337126367778228815259545045868431029437849645589178925638795843497414272945160749514714084165426561127725005493039810079480452517290207498185200717509668055892683546318815665341535697032808106797631781867079778636900617376382054640817598394038676153517033958597909974830544311249490853122270098045783563026899566057862076965478508567587449877041567729076139718636854981066664507897053160317558190734639340443, 204),
   (-197154956151549804594528170778135872520205241882046921028710037512440863505288995852842146220614899804036360431491669210831597076631768236019456869765159793999294260860786324043644067058726389882590045500914804759567983746179984946534368713859104804496078924036828289801429087908262185896123790192838236667102003718939519317341137042208805894012372011387582879741134858189955668593897575408093677513563914074730352088628, 211),
   (934217844394639862121876161182125782629662966798874841047916685310521671553962326103991809647198275117953002131456853984058360472753503867675200497447364861473654065939291320525986944570166180778722315422080724702421323386482784126733369118721815203984881266971497573448614086191554625693617723971683850141789064565402372607797348631247017594179350444633051496340472506374723019936564961282558140233726105870589191017888, 210),
   (-158845135682583637310050414378214595799174539534413035558457927180260655307343938945950776141757261524377755785578389794390713400424204955224064287421714210308705949074744929596932632241358688262813726174958748320025797188191224303535908875129465586234092629175800592249211106320935394054787272761311671502199224520443098879151573888801771623192883526328927129807622792528335792700318705689540933290598347707055522491251, 219),
   (528209885509128040714518844918737070776113976790847044417861486065523050370503309024768313307636182746179481352859499577280286958706885016518553652932142616657630240045555650852028977769229887492311638629018181531082647907342532515592291931500381946546168366737012953996398427116108826232383858541574771504205296861406357221185275870634782864675061934982893485901402090588484311752574650510906065640811404322762111072203, 215),
   (-335099695603109510776733003851829391731202182334648782942521938802161744895931735058238382466170561455858825557068604518873136753578420607062177820597628852873650306589786151682755992901383524683547897572590080896485411375473481104390898156727683273131804735347968888158518563133946444270622614225242653995114517210690734092931583827817681722563540477728890442252305075108114827376346732103811421064009749431606057395718, 227),
   (939105557276537533708439611731455781771818016618150916127156105912944358939748508151301842470507147420617416663908235618145482944407249187787055206269405937884977095844232222346382927098990175046814460917151621964890278463871213037256971399875889422640315443736454623704693623448687831344474050891290575999649108540631352967440022518847124394585064156865971067040227096943080500189484292244044261855801654249436066126887, 229),
   (-803678860032978963755490540860643475115176334382763699923937359545818908801222608744308491086993643180310624435731275509096211636848247527669425290581588853808406322385997152607659923935850716369950854217894327685415056229068285642350890079877711278718562344587074715061515078217242260421384373068872143319719392765430726155762551712476428722884142117151263453458539162040133579976545835310146374360398306278613114501766, 229),
   (368876510951903593959786317074508977015521801043266751209196096948205606480304749791711335395378622106620447360266215416790083735323006951553131505613624795519044102404320708564462639239792995000924445160289688035381048786725398149812361988544504781753910103380003537917513832686730720009389442465152773861321405832578561326965585628471618149969760751747696947486954386325750905868249912842495426514041322052136702614252, 230),
   (-923125149720533778680528010662703536561423742473016010860492465173697618007579889621524879265422592203169098998993681442861663979900458559224851655210522874511560077209046961864994911086487443736487081822289849336458502792837455665276874998136092905829824320579449565672374816440378174873057908633563875241743127759347321130907707035989601727478906655055246954769897982807725638938958976528638515026394632213743570348932, 241),
   (102782563538126102508413750951856496256072845013222353952152694881735363618170265692858382882871743994158244987762266970742990693428855227829147151891382457095255323436878972460344283856731814144161565525767681218723995255421790894843807617837791022556048911674883988696945333769530978168445592814155261158108021694193019296852341689719506376253855740928753998066125689400939240808935891549697757662722514885923646850537, 238),
   (-655076015411350995532251952032468976281834530933031937204434394691120639774531650048381244223701443894133529394475008790740584951342643662491054211402440695005691944743452409672335244801744629735887371024861742124557001522512126213561202797228419792215371833177653294508516961085108843787713487800891934198063153121443199171595929956342808132776228442199433376825192175718865692770421387217146592550186160388511019906250, 247),
   (636888658885589052901557315727024332985747392751005503244802979976675397327773349074380248113124968457448051653670739606434140113483168871652781295546864249799561246957096519581716048742198568078879341109614035666197614674515022810207552910234037372348299698326576660639014386096667011376490283647522704234214085370390269095365373807109861798705233949400843729425874395370913549860209060750769369033081150234380435180592, 253),
   (-188572988301799749241127705615416162812212213841895020766690762649760470928083270444552850572643956114497215752611047787304109375175847805695151784532184851620320647579855705925496701761448465808354795813973779680808888167818764964700925538842134054390992956001669225520942778629366261309269472085949866705644243058822229069911401050274835800403163105897188918692416516840686738234446171587614205164199212128303162013810, 255),
   (413664867987222956244209355804553132010737311619873937552617773013514076367023256312176160835062661892330568050774492900833764272232882273128949537336490168744752502048943049241434525025420643944559491826884487174091266835019079457750298308269731643882842579624683236689298288625957015934020852065186333120537819299541510992711232749590370342660947186143661434743740645683801183663840994358198551336011498396150912151424, 255),
   (-103110784171582925834346391191203069803301152693724835574305668967469760272354011299017295664859006303114326060072400434706502794750710048845059339070559509653738427255013456258080903668934666472097301930610763674223216550322369388413998637420436998154407765681116398814947925836989520074635968480325415440112462267849132258794016625368836345176127921014581293555695900561709635788415490431516921704055798925175209801626, 268),
   (301188512670574409973522039731799774332284237966284386701245748565406164428681036128926063056095855532173991462477799681429260898037617758622985941710976235577943559100259786932475830383970536995316845412258295246742979426181833225367398491810295210078233611825547244385629725708901995508766557190851612705431746456650510895626334976810141560416672624945285953742157497174172068239724208754377218814505115022247180573164, 261),
   (-770937004570847542710916650565931789612450235859854061364164699012203056638918055135259895416107273426948797500232897203853071790393885116465171393875976673693385000879337198213556447794398434782352654738563122022624642967864571454383814267648876048449590603480115693689162580755992686116534563663816203506520969500954741353683081691871170841572853932684457019190727452579388269518761070066012225637906766598808889134767, 264),
   (612952292169890392422509409889449397535534249520258396707026864996049152742542554628612899465235974779561457672930090119328846836409835192142589860586599073773776319685962393963038203188490802762813787704449077187462862978005733804889649294757796800751981500316824639564346558434304319323788088163599841936858527382357472083749625528260149699708880312630557525481420723948112481931077760185178000800453453098222545233028, 268),
   (-173794233423007364057178441776478220477329295247992746246194028033098955394598434863688615219916214324301023001093357893746330083903744204991166650812061841423746487587175286790822799578241212757499312100323647899801856816587814694250535160608651214203178715194330829602196319299830498255481024809653516681647938371069642056989453238492194899464534194575984259211778777474726825907276342679607943595029925764974686120494, 276),
   (138736748329237451706365474934079747788120317871624843969222035842450993638752664103925792499776549015462261382557256828901651664455343262119677887709650506063356203296293922665090066676360603460808284039809008707284728447012008490510310327211103838969929939606007204472641770113794896969220126392340549450464935158306469160755287789958752638917244223242248711043212927798168660478695941988170755018313199077763545432669, 278),
   (-260129842310829381223212057111061370257368363088110994209783210171469302730056712182138015129951502330490102233258083872077606523121858844890402047543811304252232061049089493484836943970537007793238065981663974836249670263851555843148130892752008729859310855439288221646643681561112498182857066985828168478603167682513855683559113767894199068203603229202702727277325548667971053175237595684957360212993877625995723525672, 293),
   (990616118004405209547336756803741296643221987382321931721822820900299097210222317336001831102939236490395767769383589450743538317573906480157831910388399026009549363482047723522295682385225255084608513720106406633464966275709378145660935302980557499077874664887504148114522460257788204486783699727500508138689641080038916313291730518751063292404119140988768624151887967557709255327422581104429283482510069570158085040668, 282),
   (-674583921974243806727583626605726893305001263343470277847644141353711283719144748396214643464815527720051176636837830641202715031912558545751272265963459158832678711777574436725109883048688054377892408030247686556398952252471378342025741011438575099484896341336771053946168596117603779433009583486087778261092733102095362575294914815257723299413552987428930625441349976483182063565793384408266465380474529520534826114954, 288),
   (369763997577304898527792056092078784633064579850215089906718927953975408532819407204558577594984146089620623998022051043813802512840569387856574528038951679028036813020229062675066916989178254799161955591299056486170972788431152654760791766791190599466061280142672740585701636947897534361260451582259758691868004875864277790983654375073056163053627813804545640618169241729192679530964042280652574338325670662894789508967, 297),
   (-105418168738140963813161691085391135445598065791378169261647085514530537644216744767796635904185877215488052889146175975940867052403686733039345884755407780502211337155151276130135366864188194331564067386241198640208470590827183303724844114855975820337364967929014816200930710408571386143740702777024908466506956642480281869597840272345550833652557200792479799508866899639341280300673697162788952261804853628790825262220, 295),
   (490708060345718168482949551065008296976352341812156850912460754793773228598743021163789697895339848508047563198613297970895771272423084451586762411542433689884882582217920150615320261296412657655420294950882472519077107436411891314989684272827405143453664676299901282427746214002776016429289992734596941647026794542862610180682813869753438462413802302318288921935542654412271101075502309306996459972517715826132089736598, 303),
   (-295710682036368660462889828594612232955924955002201524705248520206592222985898208468564409024643552663319217301279279456599515167727625150606450018918397365866826625510003837807762234721907229268939728260753209578951485832358379661753320905096937054954098245328282838820612002927999827875337943367582502020545668956501113411001279555402079055392887648432396357270387066730514118593546561439603919778742559512015901475146, 306),
   (483049520560700249858177567882399789086824383553406567918229500625907963552412466894489636117289385056013694632157195762896070359698773642254744021501072670210334726176330024986667395407197260672089084008686294716524294580787684846264392838844795172809782471928593994008782969148055489295860549520545509416900467263873853432524745078962055365592853439992861256734658389110188036769686342340589961430764533190073583476951, 305),
   (-255351092222416989726941731939735187747162421782658772342790781542183062881904535743913453496070203477011043893060827276406622493289947521543729734223619990927159227596335212703785415077907697633574562763787265956264597246236796039155776439477004721066735935831184369600628941664023128671903765929314804640228022409674362869300030985090861317815538083359335752728883614027151077881131542879963858614862072575318992227608, 311),
   (109865122848151584611673560594290165754441894276368560548381912845497638546489943473724236724095238506744474900836564256806367057972840967346175127292454912528560279504541320374184423042635861675985398329422741182189709234833344612099575633961637349062044653629889016751770974632874287029915736629535639003257698478643655378973595019757875361471141167104505491430542529353951978597591329218845843547284003410332653298427, 319),
   (-165963806405685572298521230880771342066586643028066718923526509931553316412209600840149560881357709214650253239428092078518579928602134637832527454090964209325099531654667356754859790348176199837272098442910819081455978296749801598899762442406337466011207033006983290297104826000697178669172291137497976329300335597947178384074157727965044194649323374986427142260817436887069719900107342620768812383228675592757482195884, 323),
   (381421608664672328845543092240346516340931381205624082299372843352624625821500757962198595520521720316210403043956391164900069215434786556671549407395563775036241203542775443967628108879629423823252684069175406391010806697247644958141872978060625152073182496722952917663297239218263778565156146246159564405157677350381662138593592582605967871816384718602359000180417988492342645684125372900392386161666896495551782426435, 323),
   (-180067713294503916683046317750775458526637950382699115109296603403157644913387858714259646530524207316014415255996189807707809750116516392668862153256205378633231305158176416935755352265287418779269239640213014976280698799327713908439103203004637804499824966209909271412757523805158702871417470175538400461663160237512755478238474731593320458934902914714951693251510763594809509816461021091353620804154445042010052770442, 337),
   (340709266400088802120345253132185409750557477178001032314011524363932969576064150121689027468760291540350033088128671822652497356627945680040099513402366376630418955273249511312740296674093758504637830809711869646714541706476783773351056444957643674609304891231205614937455184753846785498530622168903106787212787556350159388785620880631669513559487753144782400316709603606561757570505655738402214846062751569020838680770, 331),
   (-523308721788649191590629342488110346777163464354511715796256801575045908756496506126040717774250578355766947860587308759106715280045233875045181668142777380528687668663550575767482903597189698334528224912903780514321504498758935786771617250440986000232865116904810995805073837652445398846096830699656105455357201870213179789621177392738163008666371039269035770968525069727859783667781654118976402814708973359630930041610, 335),
   (332420693949363478414164527366994734270241721388456820192565765841197658711903129266061006566379082144239695694846518705844544992415077449569407788953915391070837640185929972714379661241689062944685330295283663369639489503742389501074883060605665901267498538668548304538452585558550477856576806035179547745814679447301970518594767371550177278893379477070742000027106534240294853153729533565630892527050658093610308083431, 341),
   (-195740900302444340472133512465722873498892240903861053320855300215652124683096290788677337350823931798693608073483670699788489766503083516422349326794010416933735230838846364197914814100495969250947349090757223648905980795207103494104980824924431323317273911590878011997959999814127215028995114434507899470248626001681681426734093059626346895022984330857334326781018983541750417321363368056016499311247662002343938460831, 344),
   (598480879359201907125163770563923701266503475146823811163033537760978572333607098237828641802422568128162641022551506522839790215028962181225081005006671377313730529756188134992525981459221835869328406492413817955053764371317354907924051284765204436219802148169693513726291285575167597120604869943062137770433592994685888659952552276741279654459431249389573043267211778995061343305122476888434581940153542602509483273269, 343),
   (-317106375413066202452441820896216706783904566514867326868891978820112213799358317097180836466207427423266664205313341609268979260421154862276124816443470509036970971206432573375298479199299516629560991002071123955307979065471852143834666287371604593409326412724024828697737299648426773625926500843881599898499333659931666327001202312501292521485179065535180817200067274983884069350965526326660140103752830189640165023991, 352),
   (273280120135903400796020253856496684011788906317364748953085333993961201260103100240458401853886188153815729448551782636694969615369921631309790968386191316441784908017981662481469984984167042448669367248157448891503875887451536439734237831153280451449416018604604766043854195342721279546881034771821254740522985524013298494222843478038262936400568637590829723962229916157673134572264808025853029183736196477170743136877, 351),
   (-152387884286050393781150477405361768047445672066670152731386658119366924018549384058385693640759988242204691411870888556385308789881361353194595122419693229360543498293607033753453768103544362717196778910438725775297840181946895985224362889371383350182023182833450823836794914345191149211687613093403631815743771198585469857938194040591662879303590674601562798625480798936084158917658005327679315870514911912929995343060, 365),
   (528168912837706058300773133313257899555587106960109572593099169926084645995536010041644416988320274543220347636616930207795735994723115545688498750717900197870506209028410072401487019057548087850004588603237730873479814196999295434481931067137764962841073981130954808986206858338403526750137235752365371892579241900939848497390232913786112764562239393544911287045142382805501061932343506473618683674168767747900246746802, 365),
   (-117480689361211447313166166251468009699623620454033000216107989040817903547201604849842869006326350982666775508399353499159203374500285888028447665181130108241126172167265986373064691330530553024545765476110712894561169729072048098673803229242910482386856970956568830040163881098991269512281296124417734272552022576687786356962609072212836896669778015016245778355013380888419277861827003621062644161968802514468533744168, 366),
   (624922331312776473211378904153389829248973306126285038561741107081420976896525537385643705333526763797786358447120246174604555658992998043496072157747024812232350202780442603988225504946101054051661947279251877978889787914507425007059014379105059050080892493923329971127871558484129692266997214231422939497821275958312524972071295653314997165691359417693165165197558722682436343466845938272292369295435336576723143069179, 366),
   (-467265599095483972718278933168475523783428550742396333688414779951917543627373225495587981914224189549386028779823201457561108289890275483234132197314862596684079187644031367058060738289462282950384302571383870189117426693926813264671970581764456047034015383193363685212933612540975591669336555093182848799312108201565795537152843947354843400246671791395233504402439699449357532003961323388399012110496358565995637548772, 379),
   (368179084130108033985095887328772696251377269060836502878175175301074705006952853494721233805143659350788394383444664008485153297564060325151646939468791046065462025379099581934013897637189594098170444121512102085595038700210184656082324519543028478730870472059928224353110403475749162068959308964853515745542582119886368262939148932714883454159125405981018559182736663479140641055804518239895993418767368306643900420352, 377),
   (-324561550264556753607699051111806546225084048437625308412476604532398007706689730128676641801751639848584567760329226185917518966629910395194646085838590821322737707096106340416256414675982889524753132663533855018312118352070855249537245446445328201795396886197604976282867367191682482071399428434107311261771776203016650715124304944618363732390092737973138714915815998080761234626713065483609283419162522821329242032155, 380),
   (202203592443382318805493733238894041423136824600003157248712707564793722249523940924419917319731730383593570903893201127791676225930335459563937215152097599122321983040851370111279627098644402158190225656085625295349615010489195534632483838741084857103115027840582413386981156988744758415055893392249827024037568148379395457320404504126018425351178463800777553966630150034613112995987777353564710814875733376572097641229, 385),
   (-157659053710318169910161687459859213994652235989531694648577378571670653523276973278928488262224446898357639858718290602618434236427790737605192713447659369921998922227323309695934883527295148886756840874633963346533560581408179413853205831232143583052797977459137803092113451030028026836843583278943488574368404754942491451321917152655187491107244326485854657914147642617155036530075859040959418486498577640973681869611, 389),
   (857814643848300338009200992785326947766440616020465618611429950623955603331870073455542875289527556922804400078825525519606179834120259780530637463776262744956736350409688523399650178454699473237398234806711307081762225735691152727420532856014518131792862950363916722783399523099634936109162413927817936989852426039776480353369014079837119483810108128211085406552578536707936891138893207940711857696139909631969397860514, 389),
   (-121713516092435981466310880809853215954107602179307964036374412175485616594967685654258993921022609350710652979400482990637917972259623287909171816727833412247675094822690262186673272947128409453556223591236039402046956692537553458081510664065787186099647312868733930685041444513179252986312272848993928871311715481862266654135396054921970083558391316485376731266982267477325771164100213764686565220745603171174916833737, 413),
   (469735149656321636903960185893921040596763993145508011382725153971536194479728786725431953740731937301649823776071317727813857007714907016790236795683658992834208704115160500231951703273969035330771734377816916876961930271053226483015850463595486869477126937192370524363970905677517189990791413883125879905099198194915182530611687738243906219069404887789829283921926628847250215997689445455228753722044074797536801543330, 397),
   (-409290387023473775248835260647129861970758042011901661056499746406028216126982834198487752471014106649176794240098617857389400930953608525626221694384037343964702719118752298209027307440804070988372510063045266328653725489832706189871898791657973653618019014682959688096828231352596514169595826928309856981850745774527642819584555960181656273465218274925766212793449648123487204056899859517711924277445767485052015257453, 405),
   (344589764393589391335534826543323759824438183655539745711466407067057006584244413227867584582250231115659070772965174543160707843665500005378361324680634069646270818460321199753257940187433198502850448712588579195163094786907804977277550793628908645262356044096911425548219102925792564414105367440976797283010375585024048888000047152522371537226958866252766322649956789612007408284346285337180323769486215343205289664806, 412),
   (-100577216525438629073894964685743299074821844351013020157194860391563347567826222134113946388960475452084715974373586883222702504354464859933481836016886296964132036093605091151368817295921147664928849635644543260571451609633458369690780007007164832656419954855369113833651507914760094030468581331684506230988874414273756630303489141508539625079111366757568175976238492532440123764773893390207243092596212965185060098195, 410),
   (389247136552178203223764022973797742321049133158248341791869183070549281748220529133168809869769313036565626444591886840439338085515376108236592266267689634926037051030555346433252425152994905885224375332497074215375975762723447949761135683016991031753935924053725251088595180672794058646640630260769511704036209840224617694138797843092621719133350908232645963288694029334531270462092810615547882979017423464403537591102, 415),
   (-975977192977129544192970650724764848576506134325504062094637901875767520549302124093076093789105410791903046434959541219993537721512615499481903933786605571185404845366929535480569233620737619265309371961866080732579916323497252268232488658843559774857439670249414398057956781378936242015676220260577262396638312534194585068176577104251039387844697024097549912145227486211809185279817995439718199655701832662047663460318, 425),
   (919837274385564027108565804168805091879316978599242889907304637320299689877933321046930079211451569937589987795952943086943729605812867340752730202735145642157546758460115114580238782460597691880138858556875841569424962824745542414759852566985562912734749045106643099685895960056459267158137629157553840131662199201100001363654265148800047409464167938369568934612206186111290512337982038182481478102520055673865423358394, 420),
   (-200236959417672346048093025133215743015436378354264638700063821057664807303149025404366997968957225856647006848966400672832144878792234307471015660886113485874084109639547040643508572407062196861032190670782305850921549328142516129794579607964949408458491738787021492038510574396499645665043904757108527596825269401924913334722794762920825962306133343271945672713924054844112278282377366485638417306370012923913998237678, 428),
   (752835934568102793554370445260143910880611601097157915554696373512184667913465638603446719962471806977319307424833236544349238863409988369187424824865057348415853937415228651087371710945701776553092016213764637713208194262769482670321055499087948216122584850796780678934924323562262299290446192476033130796967754491611823292435281568992868372478589118741120900241096717768616354293163065762904202849428294379302226296102, 430),
   (-112492968073823684711774738153224306948744709158327560912740752202260925183204137838029667416811634088230706215480516486261217867228293317866955370574630754264136936545030384449453467373668212251333279320054850662454447147455015651243976291147154955229384580746995262512110694202107671317504361188408297704049671249391888326903424203422474946421472780077982514240335803790124495063169341656433542544869721537306557884453, 445),
   (201807188929302239436128204353151687220002078014799772144932644784384290445812404031969491924271622229551742667972466981453869159074990123258324464238581703441909514392713540548320716655131014855638044154848099342923182787577959710924153146109648037260826134635671178088498292746435122701336008681656814731513059453451418101294888410810980988243286680639127257012095424006472433427910653867127126717383230425677445389866, 439),
   (-371239203652933989659346762070639740546356688176923082850132021477515364106997224211117548840777122975716261595728375100002611689254357439547228990043154662585385252653345600397025327433428251392089887739315459885702295781115390535551766860474889810175214554232275925436474311028923456844092893345772696077253526373330164808166019747485044149388763195736982053980233707130831220279234767240283571240154572443366724213073, 445),
   (233539928281682397144228763604675584426582129698587509237197645477617193438672144538618049985987758635228852250818157089951549837534430955113719241445933642459216372141884653950874840134705722491469961456522529082617589693998456963620858352860292319843195908355357649433794531419937783240366595403310433292809004747435067892014584550340146491427319452853235899859188695839724373253041805566790600408363217985778616020470, 444),
   (-542019699536594677464070199727897874436531870035350062268232087473727511847579735692263068269202465764218942737468050394015986659382680882789942107668391889407435843512062194479055138074481635888652868174776319031417104857659349893586574317895622134031108909687003799049326835449031674157505675648926342527380650288462382210303042883227714594728538688771110586466441835776596863491967442835811153508228125448664602034562, 451),
   (407457278626421914346919290012023899660046160921100003409932578585140608152278895349901340082807259299507948110742863403231709578437000029689419492974640237519090408298054266448957637949889925788276903685552337398167952996484224210253645691379357264048427241221004554005555017479656644336413955812643566502459271342110850922054936916856132203146507399586822377449725073475078319539493149139756581392063978699870994091118, 460),
   (-789234926341422253085971846760849325046100383265585519250468786674681319770916367671428214847821734817119018862819068165448127134317182065223048376744498149570148057578541140978457124114304769525095904212367848729923094706544671553165805558598990955086468233694684521490706410450323155090744193330337503423306486376258131340422966930381283826016011810540028978988154074090954172596523138592349259273954780646475583562010, 459),
   (895400754684121341894898910546469617644332933814331850188559653767640539346818102722140214683657010685297630629616265238247456436518906323838268053413457897390523295191735544768179846457776413058873275929181991419816676877840319399248846070201067208340714718639398485878473459856125312899645398761765633981763894705520773333161290044238341676074516262133581449136369970288412666516052824104435233936616954990944644596664, 461),
   (-388072898815324690220780388054439369943305232143181967356376832636625839403926055572827125332825167566669195394262664225576841340142384071993179169154807276562441119957126858350479248089328600560933756237319997792672124102498270443301513929355116629715340878984847607372207469171260275759027089376026283251225143565954337829666059983178858895590519902333607481062073684353737183451873809519700826153254800692229053461790, 479),
   (764564043745475689625358233405220688346449276401730491614176918366269449102852720128326470141048958476834241654595578879175107639033663856846714075819049547860691296253223963906468772952440649621222427928986116778891639935242869463521356046811987293533576549569944872259726296583396840067412726753466757301412905378508223645639208760305284477836080978170343670334255957958922965667318495978076709299841902486488828740813, 467),
   (-211045157551262585819880995844959667976490681483605703420141887602467859582726837684798257430462686792461994375441604232750114579386744889149458994608033509685925859056643265249763486644474465339561052143502178382377182363087755623908146533744525868610251381808924911221356227617887322143376601829043743115349580537601055092094202707402297340458911281037787405471666963765581908536161294969200347219474183743486209008271, 475),
   (389940290490505794145615754986493146603885403838146761497096955568805661752812456909079580602926520458383090509224761151055813552797514140210869549950389223803408828221104329183491015293692288940051537208877576130820766537501775709692096711114163151243877600484279915906875665406902743476876812357192062439427349983226159465035888538551319021049352402179695078939681361489292201387121607545745365222735503319646151560351, 476),
   (-703816364948012488437828685510076931300718643976635036127365733000576498052271152084877988601773175439917116990138240793501414819892087006544826281865254823016937629234756874367469344876794426045672735589727108709267124763407558862556951457014989330706132748280103750376891696984186387550853930572098930901809400021066422819671812746430820184891745773799648109392630179484426378650987374227323034505624988422945337237707, 482),
   (244880150023689417851569872635647637024597274141996121710500373483959778134465362888553147153601305230433519724259816948413513752427863659546445392963997483728601960673580722140004104162696031048697888717780655734372514592831917140699091334720766054643485626137741080947808019349119679929259647219272744758193793203013470832331404795691778911098027429848059753960123828595665578844950471219605576709611351664945220428807, 486),
   (-407676096824069796402509817445917748634821745414963766161974576002090849358593663694401003605297202558666159323985995344127987467925073708460859785988617048783598856991424455561132216187944669065351773070321496412513906145790161772321166337598493313515362017732061990635349221932925232524265751114732030907754602807278109829510670083818397163311811043450379402326864754800400102998198678941422063650040082323201192061859, 495),
   (353159933920923640148308058830731815633794363002599330815821655526863571316927710458029528268025536923713623477804946105123346797437149076276998814013435640126610340215264971119171698230336386230702822699227009108343756952768538458052170606383900471822908498298935853901909134352067918414327461675541262948939556957236257017619479099887927014779975804399420113729878704191899089806218149131127575967980609799526558521626, 492),
   (-213691909634908102726983540959364094815670565461912801884534047250100215112527283374980445187467014026370053246060263794699977806550107922517680568810862647425019198313065251931423868059013995851329787899980528250433576720603746545992907871673410784728747081721385212270596601872859989547333460061909540326575715538935881389321567568295044674926563545024734188465345810436603208363399834583176483471993110687693256361629, 502),
   (103542095569540287363449206089017325853194627680282163948800616086890629518794422724881285683203655626550847419760695463389526152512158437330672247729901557178972045169826440757428827743249851212088971218823605220239284974222739031107871724766258393227003107694055957732789506340748065412389013087542761113817091641305068574175570965574213584518977258539902792488524648828199894745454936313586385963381306653252872757653, 507),
   (-114020538384834865558282298730806944768408442602816245434773803952680564631047883262979673350022204254537018428680165192325286149373243573308326887767011429136922699778153104912665990053003674118991799280580350701640487583643638783946304250561839315889963979908939398102250041851491409233685646851041837081176306268576753102930670765071518505708028059236757351308466715782860670858176347736163833076475299516147707682413, 504),
   (580568597823809832578124741352398046253738469157310300880923830090677098829502217735655427384286541462959761717577774269137535788348281945001623929786012068523667997056243737086070884811171066353177196249012143660320814085524726253330855540340779807297626763674449884090867366392578629654075168666071772722250446910137390218680758926300904750289333352998515363226995502392862046964855445332874975013711303974152164947366, 511),
   (-667727800009070016242656703236944512541202840041278778748015888086931972327525425567678383367811063943086641271500309243841224308460477877189076585203027347270069421075345009136333514648861096621866554107316700421284140369818339554165296615502010920453652312631012849105325008249049748538682046169186347591503936296434893579751730233669469275218397151194071680115544642515833439427749255825790220923064513451594298149142, 526),
   (172051484434633429029879815726275188794317563955613342866753031341344033041679152108940552587179229712250994831438280846711284337132914720502610874125147436068638092159966123358532560295884734434671194421180209483533186352652329779460450911016922412506224680900609591649352008176288343736045735342039530559653789974774688873538444492100576353748242573254256361628171389632303711912736545206245418646743186027000434150467, 515),
   (-793638892481727174288930366134852917782480957671493505462348404631698112405049176965385529082133844008811169124999973475621432513709114554247202591440557037100692788717076421591159246284938242024665734501915857590616687801922267231972180807715194769272005928233785276416690800610614418567158255189478887423741208267694211616358898703905805409987509987260011316118333948616854026522454382514590140097213891092345517078329, 519),
   (626336803036570943788514124576273528588059915669303116584390011618625388641062356471332737254201757301896084326343410183488440625994159383097801211647635669508398645524280773043596760219901432534061781094371687024191684466731406730164469241586754916518859139143830433231372267784473846284706922822515388613447274418750078102895933591276829589772468176878062085367971772712224002575961826455103222517665130263038902846277, 526),
   (-117131218036015293298349943413796038397113921334064061210664570356273325128634122273893131843083772574550426101095481310834530440821051995391633183257204158452794447859482376189653765932649197323849618746666526515323637392900311591003969786790312636032226042538028967443229786006932059050468607327927106421219616102086396792407476440329408418658380609184844533283584048178653460163780250238587684614738002264239956973885, 529),
   (142637530048186355537202018056468659986158777589784878595478524800658969836705042548815173409077614826372151322372861227514748817539254422997178173292910097926860886569247926508012320514148829314819746710281929190167260528864166680922943869406000800206370490891490164348302427305663830750342084969405122016764025562750829861072439054659712474753703454648722106637722322440193512953988452663711625757253874992651958305246, 532),
   (-761512114615268558616050521682826955100452206329654950751100956954826787396435689109382672869518802680166134700532278115607648003561212170433436911493055931222367878835526747328191614154675339084827472888945165292800206578051812330222005064953350942021091697021054547805604281847791949362004789186210926453872085786338028843359663440898766829622032662706954603252088532887670428767446411488562334788900999244179564408369, 547),
   (117096288362548876962764174047968222016603457631943687341165324424053437928490542643812013606252012101373187571187373298415401220576568984300340472145305486540650806765537813487476645554743655508976999087302737724753731458246417208631642247190851637842612040713842545887489141146577175079374374476739269479868408465079333523725400389477627274360745691244927255890720887478094894041696923803015417589232337439093071899967, 539),
   (-205783348361604738690420164064073731564130029072563093674015055904958384211568918919866369045545372077201451311234954018758975448306611570015330218347930963732493187812932533069826020002616706601725383130992104468333899657461363945081624184715592205367154958237914723285250072719504621265480675284939893277542602273166461108660536895596085282112546576060563469918057323800527056514134868631637352813690398329914565420768, 551),
   (470264084896834921253579065941496255260089485866270014303628287029496536092621484833778726679869885329947026300103418987990080507411462429220614450222194367846023657693268884688798641908735536121171966868861026232193237019817193473337188238008923662432751237463367033103193718153178301971304904486457756647001228162178299038336923657342738284926828143598861803949957686723525483884989861564070786286054991856832659421801, 550),
   (-180467417366399984623173006427811276936371955887355025325471441485900767756072559013609085466678696346336410349349550324340212323840821189709757518901784202506515367536273232513290582242415206538006898614116856393600099548700749480811858063651955315325307277965877118489089243861749232252704875408616016210610463840985419165891699079978090815754589170286606052124701442537213776008934585972651678671039352989860401838986, 555),
   (103228109281171688825222174805257685458800311187444099552027068690944594949751058179546518147343327263041074268784793207596513816462044079574758046261865288077341830864416204984716814247932789228242942959167143059870360659576494229105147537846318527968725802880438916750977796977510551541840803820900357405504935693047802941338462515258911573199625239146117741347617118291438598275718505202181070366255162712677560957764, 555),
   (-161777508036693406756882763189840513938945714554622967907594580182048265846776253800795087776861956469704195284606455579984442332174421911164826517296199160002726582841396570075936867891561089249830946666662595215629114693512969376758584947606086720472603299536997453157272529494724374455187985143125052416586831895050434793221456135896198781633913023733314676224308610319366314493685678964832848249957454111350599216655, 571),
   (100740821115071032236988177137087832169759039148696508123986270051763107857836811713792775736752109025145087028859072516694642159042741587381973363901123260354020584646886342000379160237896276917267011466235678294933081517089237088164800619708789805595236005456828251713664666594821125521299742340986232315157863947287772259003785707300960559202252654193938138796621839389455034326520284757451321329328327542459447083257, 563),
   (-502392258429927883880743252192324483699124428647074485354516742055977953209736465902030154899396073440247607887201911017564110553061149788477899202878162032407555290509113889627298825056249476026127650629519150600936031582122915255546872199278098647934906948268686975283726214707058806061661576434565922139071864647982266550324837792450865053227353692191566657670038420567879620542311345590522241048099084228168243153368, 567),
   (236130861805015903585271460263822418962314759013154201850989440733856867875510548462204184396602232956408344415666630132146808087174859106734436237696353692718367814173668008096633341130113803415219724389120289056972491334351038721274200670832968458019280928412346294502397585149560178423594203417509082635212988027505368350443051390762549217600203771478900462134233800840305679231268250395573748564185177460700546708925, 586),
   (-161480601991119960872139098347655578729996242690472666270001530415029170785003885249975617037841368359792185924320149490386646007387553415648323219283489947930493855192412548064368206496369758226250797552193012405967394487588123667191633974074968806111076160360154859278303705923698734157399846563493519023657751881201798155880328368983280361705192389896148690076027462183380806805325212228941682565722749765768287325498, 578),
   (103567698264680901251032958895806906917978143770984571499590763435926139516032703196676307713410005747756010864664874919021057850403984427364298868537514719164114566920401677617781356578869020588649689755584823555649278280036780754030304864493027030783191416160437510805986713960883277142920852377778641300851231159884100064191287884324580034818244107147708524479765744203673218935309991907568584485759296657933368664207, 579),
   (-515811004103441148541248126605642790987852881023692278548078394630393487773817345039573686775570013991296502499284268273116530450005697321355170756157117634819216576859416744007807555750206564123345945059859098762304191439726892733183282998024326982907350442285108635847502503070155308631734367740441358495317173782209810479872193220498186148060491076183746841782621595931909394342667545383402356615476493290908910561661, 587),
   (148004748958786590090901624359208053523400710339978796765556974228150192366769813984565349222200601199426266991987460490062823033206220900044655300051355613281858351716351039529349908807687855378323143668032083486052313246931878622817505824784388581186354468610715996953656763581192424142937481790055943240912195655568950057084835441765731772170005316072401847692588867277828088895814147896816016214903575059093448483798, 590),
   (-277632558619280043844042757218152172215303725160074243690095644410713654088942854557931702434743174183284605482604396424728159512851609464093377049017938028124369275789479452333355817146456920100977192281626881168699809892991252259463881973564584886762301473948132103804757357296717262235710487703110640127883184792450133581054267171940430555997845766398756586283471751734714160456381794250562597780739239031498210037905, 598),
   (530101742984986101675596501281127230517184653614748731286604110078913453061234324728141488687387239147336310235261599132644160886884453536531278381270385113740452742714766310669743695741428335663515142787664288789593979839136835964318382253359963635163013288646955590863433094259993125935138860668846114563900721828659637321917914187336458425717727521710855907200519037539495009314493167570128880856074173611515728614756, 598),
   (-841885797317372629578963679982650365966726607151325078206408224665055512019968145716868240277366406086176839711445647475974897143325683524252443629995558150043465031695573231503193949819709469611332550834016445240940307713094563253553150233553875857658698561350973308032675505543613691256551769891781259223729486778175528460481971481988076185994259150006327733868291596162842255218166363811356618710311039373539950842749, 602),
   (843575774641832492462307455616657402616747724598204318206846473009372826224075699661222502636231418759611183708144754041068412289702127483419865881040819849008089511981316139611272630219114455680473144770863264803474713179920571366925698645232396779330706332087173299482278659883649533311340824364245230987213324182679524905717367547447162933167887776401329633943942555070484237279195652795521644895733967850138348880257, 605),
   (-574437856145659945473013137192508638693046024644461800786803223145440131234385842121309578405935197436064274091574765689322675796133949134806496212200496397237993328693990851182172030180316276457260553036283123495530918617975043391229483265205845606870219724413712244819471888884231673373966410696567042410891691897497435490826909339623878275867635801407224984473895501018878664719420248056029832148913332573652401642930, 618),
   (213207101516393063527995051109614065588714632032375305741297087380947279185607221167747612665432765985409724531719977200987743389432427553186264156504454509460298309363129961205933726989656373749780146293041813067124519090362659648934749202925124628071405649488893984364477834232330874260319991901408664703870549342269915506924380372214129497744890628760788938445024485444849757261485851790749475103406043978369104589536, 614),
   (-519385377400510417297449890307406779825406239888433781731530037975658609917131080595184311783459012680270541027939995345150053930651426429432859403296305744157699335869258871003588367476867001350384200265081923941980530787691551184958914370140932568815265309584801775538842604542793254486227268617503627542111675197908933566860717255477571230498413666967489029047428885591388485631413296826465014410190418908191659919583, 618),
   (120458032617654497798713657530989067599727386900061604407087831951236901964261767909221575058537398032903437226912453682190160958624189354786277134889035470928563601157438787265093229570426309432565374535969661144693634365857893379133475955759704769032558387228158594456213161708707164268903501053916950629413706422149631335877473183422090516814050382527265325585774113814507868022184866836613554118755443775013755558373, 620),
   (-132135692923085674896248924730965676790198305787168678972647906642616836115797589919510956843728196478009299734541923178338291984398776701186778343249693195922565052228173007289377100873160357624631101278310987182508639915862032661960815227308837636008374343183747684666491443438458129626278161542466151612778314327108998260477847003119286671864482498377027281811014060246197719458239287398087734385897419511453683693397, 627),
   (135157474916999209244631341056946345828717019511151896321270499095964571244245925552131781210313706520111842560257740825002176046827949512945311740431518445703739997178129553389802800024326612523132348607597567149344707146116684451851941074446922595504392027616858410128369259461460775775610667069098860532002691150875105387210120203548514816549979524536436601708148301552218247591116898682487588830922645919063350960879, 630),
   (-721027735574734905311593272535052263170913705550675327483757403399032649598255037164705628599635988985536998648506236862643833742269113977373445543725504880588895581880624192819386436804539010749121947801611989965721415514591338675662845404801773209084035005656814402492109532693225427692914662554757035327313494621048294535307956285380784966112059149468405447442957971352198512216812029015451836519407096539737786411556, 646),
   (250451698029912838408457623101765465232644800684678386761560295217118180604152711820629608350891589060324032103041165575575193630978794684897973294770989641283313927322293047932906096624742134523199996228659270579156450594449781182416442983695736151933514715692656520392252878040034014818222417330203679604736023299313173796589097392443926836719814637080060344957175993506238745612223829802109066214480065539533841221859, 635),
   (-233202030237834826195141973015237406578664677108169910561704931112947685601080553713731758018204100142820923768818654131463406533398427442046206378504825426147529978007118890307165021511509030914914274402886220283032665423193312970934353305446768971561945685065992558434648424803347529095906003441247086747647019261194783758038639742923103905834849668099015199435958998835681560567232107441156898323535089587299941122237, 642),
   (929262674585833184261226118764680450798414198653461079072500387561308563419566264086451984914600409805390392393285521678181088611270903625015049874230665959425567114700124477061700071538201688014744292304395464120534644352084070926738191538902337218766583750701361784995658740140309963720318650280420236096975093441844816750051159834050349623134834802764462107351637054806189784982226795279715098837141475008836134632779, 647),
   (-176805004369920457632290427908661323820944118897891400922077649330877469838383223856202072528048175148545928897783884353572896400800009759702189574109694647048569335249337336163134856104509906218936298788181647572865215299330045839832120019060826381946057577570475968155629140532990768798076669500689975868621290335434038959085004842022263183969551876006860201629876372798856912889310168565236475975914727200458559752734, 648),
   (441629847950038026716627560711552661610668047008030608880204822081377075358204989509635632714504527167389841135162264997992355490281694013389266249151213889545751821612060763652993553098466559165203869285939903619769752334429282412305232343499606881686457983516808727868145000518174856237601677494971996661167661998419170402298966187219541917757623780508117565684943170372152490951160045561373722567071993198265613709649, 652),
   (-109956195201884542016738299010915047906570253997891486835374229237456931920694110061377118982744560659113672167417775143356122955776267931072576874366163121964053482508428337168950682128164076791070372952886383743706073570210059084170240107507155664991945050714523505443516074021270719436494090171899579734848425927058496127097357436409178802679288388058189552320213359623588819990666001905556446538941767449346519838142, 672),
   (526881577046438047737124965566083389949197374389915315397169993669119306072212075560517112248960183148517986520332722272145904680504526764592605432223637674110772175652292840886285845085478607490649653463242808459074496915603882625853901409621602433016958185773787396775828734865305493975727908803078814216457005884071474186272133271693911424747179345679939649489517243659241734904829281395918999856958917740817135429594, 659),
   (-109254236893541848719820174722599596195373705369434849933436102092573789533624742962182073970321849188145687265128239971485729111163528562960471488675421493264499711752911018599148334299984433343456600929769977509688409133035480982759645773442645510499905923715002658150963063749142387324703850638057744330685386782424703385262760942768179500943342993365503636447954310995794983411355607046591660781514595988722465168621, 669),
   (112508741915611003300335401352104593852809235414143362364200720177243489066817808833230793638547857035564654111569795583566880732028603714427561211199613663577432974414518146371611146634331716988840518620765555520694003137872920432716013416149389376463514963899500155006306358133494592412485777810021611841974500343549240759497196315171050705652129840828749292435543668233699351931868843657266854870583856766412854762945, 671),
   (-255828211581543663989100842995639124938883630205678347364872296626300663390015286783079644840352275588865288605224926715225590480590350228071748020739622650242573429362104015665689358959101670110611318112692574387431203650471515631953888482344148559148269725527692778817244356927053759662793412379982182104826713786156200877186839693600418574225892126090359233876613850855920261131760476351655989567965913119129934268832, 677),
   (153038820909595321719236721235064007731468542147054469813282253615766290870759751981986330493094208417350669959441087351915402012993753221476918372835146755877745124133673759319998860599042934662674267627399747322848995303722655314340331608279558567836707086955375464436306009311268768740417615835304424418876640320446953880041718888688865327178394102621072189112738237240133853817878186192021698025605326950982144280481, 680),
   (-844446896661779294749606267724585660324603020031667746164653773729372611224315232939593880819432856455263937634467483539153539019259466143059096922590356040228489928432495828931155327424175626612083223621136656851570834839195441021139431431275890351838401985736123639748983085764202487411641842682548406457860319903452144687176672615782496759100453106698670201334653463463174595743517188513813855176739407030697583232416, 687),
   (137222425172037009171086051298327436018113746135705497009967966459977432086445704794065789323414998364041237586016294207097237138716451194303907695725201026372675105486217561488788711730284146955839013186712453786895649473767480094363230650847517143446856476766360363339233426284153553297256341874613407418568085111890325341359517329617798015066635382942869740954479031153498383450554356059016096962821215566531281028610, 684),
   (-241588110920578211576247666663301315529515704980800075698425033884101876865562315938141388302256530379054695105991492501455693407129973728114290989710865555224057082582078568038069340705460757246616459766562736217315247162026983202372785557804600609287856429796437006238850641308590342263539779308565331414149193376873556160408861808717997732183118233589591759501086265006873863140037241487163942114291163777758939948261, 692),
   (213187741906148234365632949188903634761980742957434979778642953684638694213181796044300856508239276280674103031378417078320497390062213151294480496309891110874352703150464335482916316989033036401001441055216785284795886375134584742527617786286874089367523157912355786611318909603230484707371390763124592269816833947322368048317090632288005895226221160608184014406262540913871889143648760505245511864439745342749500918021, 702),
   (-415760273225621191145347898733150925280332766867462558934270354095168445328724762434773439061639854997201849887473587634228456705341085059484153926219850235832470833146622637534943713956815054659109962301647161759233830249725371727856810080988944112037003246850381699848092904147992704466811308560450215245372867379460575034051511594650199129063930368257683644120273874743027275122237249192023112591361756176520481701691, 699),
   (291928488353144128022642838534138820418571289835379434247959691786574160241456304258535687004104191751951700528522658408761066746636799918369622770492436162198457049890400901317782183798053850635047848103060810161627905837170671146888972817998887887822080224433737157595795418873564020395856677162224103468998690177392612621552439379995431212816563366531464045087649445823175799654494019704782029746026863318229261800368, 700),
   (-780828294407786066274419637027153248050594282667093151380675851306622188770401729662873367436767563957804122161228060921195199685874707213741069611292326508065632952314548545920843493538845671963986794152640958747382965408973921122199370716620344702892666251669010734220727057530924495242464197034769413520424125346242100078372755832013078399061841497089546492542713978309423575648097547426948549658873919085063780623385, 713),
   (440797629105449569286854418385832430006485784955329746850278862710895377450299093510980428579384211051825028442818565495859849239383964825194126340254149814498726536039955814366726228342934697165348989880951312847482681909645231323627059115465965075977068684888812335305151268129155648391425387380617724588942638013662659652451604709865208874538474563550281813608808124726530519444672621515473879797272557119130261214570, 708),
   (-438039381258982380874963590592759866603763566036541015472268866972853540276816454523567039844746362381658364623606397926215941906200808268901792944663038840285847838657028240848451038393659067317025003959239438231163929665891189333701709828500496223652683534595914661921965623544195359541352239029876614881558897585915205460335724812685200952548983194535565007110407572497007420868956939326199829368339189203490607150531, 722),
   (715531659908886852296757960758092229584559320559242829880767487684315716065121665926780710966283324798846622569403717499637703648980499665828883657171696621932606079102329192970740178019770997142503030066642498471502868901787800232010592375568764272095763652557991440314186187213627891602301367301259029221891706011295966777236213957692379521672239797112606948518001530046418025951837225251797703790307935721683407688702, 720),
   (-524360348663581472066695035060741421354011841795429758535601056768078872914975454131266945530313281361467640028528795053689239222455284900546743843795276278379606836216075996509454102923264435847448067621798528620603829162755719952414326287742035998570272664078609172191368824084922563560313907317713351091519793957156296143402214940783068786134771979061506182869090891385493708909666289215915782488132518652567603171511, 728),
   (107634736294435518550388154834880072734499843579817912452754034288709622766870633645265339057507193183552123859515682341201837677624942016005026789336354258944591365967356645496654479893928021293217646370824667974880219163126593529352405109188231135507476406333156590952203758105993019824721738986888356572969632793443501089472355774940926521637901303826529475165897218823456658030400564444756803345484709918477596767156, 725),
   (-440253703212386676157550232813052465779247612092659433501725146165085545289792869537317438264940799876820368684304553731456364078919699786784604307932897178107004543896015024967859432560513028607511108595636889368102773215024908522428023383719724832896637018560855480892155802788344391181103295587538925373008311153018545746638151525753957884563075141898053528785383653165509132308372142578069380007425356571338973774432, 734),
   (191418063461459187812504605232427695291431417077025274029383867866071620154017421305473639964456270774733543915796684626523149574111171514196472455586304174128824042030489881187790064797546322798783997265533394114260722028623943706140479160914232827752352166301968286765480987477213522203054354685583152856246045605887209184811434654411774520299669283483048334120449753539385254385356296713241646605629666235527759027420, 734),
   (-199711524121739669651280811581643879295468108528379689146634111147405209053595714806881400216139210512038017619023119930779671792325117188064882940280225258537827408377693218437182000306174043030358738716324540367331857434040261678260093590792057094913686899656658602435435563377249213753553228651835737147404129180971148376816568876513325524301880390477296509330410559174896618632154667118887731362711021190261449095700, 740),
   (213211053907588466659168268100573967680933968813588760829622207662079218842920070797762950178553106357294983493693205537343920084538425635959069855736042006395110581469584432719077083769256091414311037702634245429424471623440780797533513949414454858352265650016392474594788894454405111436617668083587494428756198913411233634545190434709010791432773135510847405973882537024764910436745779733729924873467716402757156831963, 748),
   (-669779538614062497098740326297700660601523510899422059619600877842256390221270988264592185083788301897197244776882462018185335778910847805864135035009151003443741108373322073697532543735939824552914366297467857217972230848003806441494140949537380282927168357792520407758652690806156027985639953234463401017214587037643187302293067598869389729163185079400987358284957787557991100355338583046035356750895436453191414687882, 748),
   (349848629238702088947934596060502169840663120412650356849502243405114089422350367477113694122933337487810776475065023232653274560037693024899725247758358784294784076592676478768657823841210863328493921342405837377526777356901975027389167031743553081939763650958663339218481793366694712499166033841419504556314011987831654269630980098762214623635677861219470910115217913117418135724323805431015999676127342419113975578200, 752),
   (-942226094564498361133574195777095409526209717843543770551795237309159569595735962667100857011740092523505162430659394902259310413320256478122099100726766436332203574903680653524560301618577501868843977703235227204744405977722166738862489433551243629514234724459784233191845610257038251372585410999761366976531709498852893315420606707306864687585501767487852353170763547383597377327545431136949345200695622044752568331881, 772),
   (841328618204470597476297619281422597393683074150229601318437893705132515603106394131548224743149903081825403606546022592723357682824591552868703843729973869378870630869445488811214551122726877465114808598464978283804888309874348433022458479153378613817751384501059384679351238273304755784416028628878586163944656482717443249071878586462401105247170839712865374998480193489313224958805389888950359615252834727378674062426, 757),
   (-557766970639367625830052231607817608461695386552501887327586251258307831941781452346631315180974124126200462122259322991989078640443893377997164127730358152430528163244715005675727246069715588460298380579863599436157290742310081371084967758344251562157196846663005795684062446841788366200427684952906414742709164142505069083709150843039960373303482519600438297546907554211626555863317601870264733591705384097737167173108, 762),
   (116636040717136734141311327023930635499260689019681786889299012701710837880565344548695786188828583501301595671389640947211944987615616669743667691653310616478587118127691050626532536249264850576873892265217350772327644637550420899602847054309954130972162909094284612508032501320500915959156393952051954158780851743460472332087597209046855852499702014238442555493387598808234773111312980655794818849816236467802237874328, 773),
   (-153231341780667376422246876060068794272703347555980704890903803437865638602299274956046996649197700536019565682731117459129708953519356748064731272068042703470488772613492597759710973524880850922939189777793179411924786825796188601321358127352189697592964040484030180446794558147987263375773747077481050331677530401946326068992702773364650446622846077899480097173604844685060509449625739043174688098442354653409314625614, 774),
   (295656253682623488133943742087276453134297185503819418184700286382491967986062810663821633017598108687027591104379132986023600364022670072107808643571211512597694486435968451378442305810417600390674192668620003441044249436908419937185761453976718898559733193313111497940042066893952037091145096641479256753828565432394536442852593149710180974501395050517640543903887017521548954599265026759780387214774432603950372531070, 775),
   (-445907257874709875475603109299106623171256282963054371492802952860584668662531764115850176467284181320452754566802329841855766245736205178912974846574279437937378954046645279905467534334709631369654668794976410887893828306238303702491027232761697541229299290900107379490820102894266423126492645570037704805205183794903992724067112795271205812656657399483376873218428520295969778869306534000424701050503476869349473816018, 786),
   (496481880907414776471024259605473265736175165162476165881931700916833759024079335015808295042289122244479391704410797807091990393424719235026777646916521503348501906783768497071574119194037660598902867219832649038135819029526135073270804045610328202731387475552111944305443745626958274452767837553608200345886648914624359923299510202800140115707197345321391094276127244972888590460957059889065352055208262146910808751200, 782),
   (-271785075010907592420365393765558874170108473551080879915087755072108496697916744052106282382617205721885768364378977526328426494281789851430697137703887292440236885001597620961182090982342795891600230675182087819715522028115248271047060312383474747627524655700041204019488376679333123163215415233579843818853101274278268662997140272865934363894757252385507704745411852677387318469849033501886385825027870224970424271254, 790),
   (764622555318816886356305662782685695466840479312961837149011823184502695469513305921482921822191125389162453555479942982043297181461402143923935396144338460754749817744015090813174934449992180941816447116139437440045244532441720184919137898703563060369484154895235293313987849821856569578406131778886185363705545719568945815214565818260755381285005976174652436384760653936822214284207081786102374828253244879069753873645, 797),
   (-106399187742535980098155956369591040717227768887277065667261653583905593823599372427126385566645506690700447459067653827984055626388802990697996691179391420717644319828334288265535250149495842601337104184022094267352078034474039813540104015501260864772423528575476311676469069556496198838837800941771435487223577403554202683083873861811346772819425389296988055233933014415470718622329355328029879315231549351631255255988, 799),
   (143755451373397788256536713264991908153625861319614210998919963264012512451328679289207311758793295962715131611761334296701058532530156501781288379491985906223556556723181756368408241775758020241628221452857829533161274095812152603067810376814917109458695555642610218941312658751904801094233297311766589706466858434077714662656960256280913927877945271687042277679044268370977408051304733265865357480396123927927442225501, 804),
   (-429708527457950063193786152072374217495771974929264091879759123769769870775343933938760643235480370112513323826904309188028734846766493662057587643629855649022648474940695181723567544105638976183964338384426072447993389444964582749190817274407682461277418273845004679645966004697406025699618010427641228097651711590412398831354825931102562435502749164391779016832913990735056796133753250794388232895675422195186653330163, 808),
   (356442193234262618531208534281770490039862481543500201955428611346735272198640685705841091760705764076984391362146961630735699805023821785273384681655788391473450467118945930118513655245265275080911964546459125670426843427777334609618696580373015235177390965402781115552770990355475218082648569378148892634224329231776605360901379408245307754557215586895161625048115899611699804161991792348273598916203260213382495757108, 807),
   (-580162175030906009779784763923714429020527571982946630281759277057223466429653121227792606543641334177987868051745496487410237589791913724241001374736847267208607262185477479560387959258785162153286874500272390532450585036577129401854776671234126487860399820088998397097731283010060151910144838893180157811625660826990964081560290141425031785867240405288128414136508244326881068681801148175561305675593718331532348648388, 813),
   (487728281496984085768426342522009946513348643906496229584419910119449459536780230006096640075807102940855520056440089171386906435235941497512321996835859233233858608749406217773866044836299949412523888602640771152207148960985162746803849909960751233520934791258119315714910267048820584062987325389465225616408509152758057457166469739780367493489709951401883440160569911886097623983306386639969634633939033259919725596958, 826),
   (-872874650597985842294687622714164699400155858494673968771227512860110108231012975181507789303655536522115037204754201962410899598328528726858107367006811900624172563041398555809330523842900874588387005116324751017921651376404305993676170106502433165336337116210038774448546567292328021433785068284838284711384545700439631570977325060146579573054945506830959634943093610029924017282761737439655039345652781780081415093220, 821),
   (871347827029321093198138678821982078858894883488777800866680359140601375076372167947777167055709267214201654827816027486904769353966641468125200307185495794135803340204649496380154765873147792039840653215252973711987401087724453477981361033620667459730385405933434547641916794237344305478988472963823756478589480355137573164994429758167925597448557707204983546175788719873643851767783004479042543512240541917803131251309, 825),
   (-338257188475183466394785653152018341863463436633286152605018093219117187210823581661548063044616817009858733023150407217514232306163153934451534245748552466448880915293751503852141735451116607693143614177343791730840145269789048204233838554768100622469215576914986725433173183046817837538105733071204671243107649377940165819556268628618279439372912926727358185372176484716198332258967416133565092301510825222527896322725, 846),
   (310351536376915037859471576528022423771710704558994273892252669044522763672695920376457977995619056044482296174602352055516885007357753814824246688510478931886588107813971455466230611487452843173825890522192864144136288521502605412040171567148928101737899925060191251367781582618492535559614632109060620996640912516668920206230092104947267242137580291641364796564410247791400598788332213096140160670785975430433991752791, 832),
   (-148632609063775671799613634963951067952104464861550119966356730078801948875304644959452174755348353846241181155449223162537935778434789523977220413668131363637828981321622563723899005049179919088122823002409294635277032380443920344080677136112775771110872697862608737707642611384809834066757195254791474623626056366900145415076931324983200618157666202159123806961998013170752176046090531494532978047981888531260313665118, 845),
   (466259251914121768103288824418510875756159192513150412319180775708641810530931727423335552874752865021473434114960553984477347112326487207680488188306354933571213536062346290898243898623947094218337344174499001503385268692888450461093352441440751891950863110453921860435719924596110918165002127454162290089394185913453846032418543109356766001051390904006449697582893010481278663892214933684767639903097492947262345890683, 841),
   (-188345982368578323113559038493002240652162692119406796981616403089094078769234266091819361663237068207694880115420132309140483375010802331718647416064296529663333962969200285476237904190196455015759392075090102524315182098833984861754561451802316590679633268076431701058093081617259253513098813443901032970075473473098085362819083402440538930858237362383038765003624778470613278831455784578487698368484568055385893725112, 848),
   (145988299689153757703130872724002647558987561107857157251047955986102162896902923043398230163593115177498607640386631215972976717780392236818983570945490627749405123506069943418224536673359182677805869430213694553330519277687009670598144362501794821449844030233618029675993866950882144215549321526577206665053412761590048268375252687359487244630793782523467463229537312012001029624396912477885396883336107736747726831928, 849),
   (-623395584886227365830347755829109559364007576746773290481778442036559985569370529289678223189669350517221764797467957453069852861620651243766907928372342848882492034339002825640491076335498821422424128588778868374182577931872857944182821000979413337740617808851309577053701458300914702254356203009678275664026214236740624599749410224283785993165282919504150471745035467437138968750293679385596227757056418759155706213541, 866),
   (586882413739583895085368057503105513110075727687295593950163834594272685996596912080487661174441866721119448414808345151038997417999305630512421151398387796612754347876101705161575339502797255483142414248194966337161255561473688039356427340518331001232202431090886957545687160420606402437142100390845362616469765980546790863220235826283707034935965002783537149692314375543579224850131621337444648889440715360076850260216, 861),
   (-190385410995496581080249094943130288145355445713412149451146003234674251443720531895497272571005688858623256889194342082958159833141298676791869691496286068932168834314793536279992491030173844284773993971125942004132787772809558627319117058185357020279140030372594797377057336770955396796319680839462621830657983765610520831451972854324912979072644726137305108758262769876390766172037346710046159654824902015834425782775, 865),
   (992879460119759483717129015496461304615233924106266979453307618660750625582823989325982123957244550330435213597281705162046523197719159870950442553883041937893243506514602988166124628009498833654690632467802316573822412183090091043232805404908369653771201317967999722957332448160842564743863071648916832031648331900562046851247058813144222043140893241799574300437398362557587095795352259147524384231440809503876002913646, 867),
   (-221191369830392442605100490401027800849749507279858475615450096308527618660450116180416128368926392894260562370097961415340583854508054475651507274647974508005989356710279021918822810794678950467577626156146983844181130605797670880252100965868780158601191505211082232239984228430726070031850515309260509176582623746671774466124108119875856798035502926803077492840549232124237422289842684390861372823690232126513778313562, 873),
   (174136355798865893652202184808370157106773838534618571804853738885015217023410774911136486425258771831549361369830265592959487783329607663229769033227001071226825657814345387357597450484535581257380342653663123110744466286772166891164336905912200051778220792354640744065473049897862024711927898779981441872630861605024933016996394248783016680026730816430428787853710743604946045546900719513942012476711455180440160135613, 874),
   (-218439560908904378159413539096781830069517480713958291253676636893070925177901118783330202928929898771313290905698901049896950079656510480892623530797009986414214082313467976747959067803185112556131492365708658984438206280092933141965434890481544862587975567129809453447864137884282756293069710376957836502632963260554571442794250175501268132825325541081685945674937180128459652545430174159979642315277898737287347168296, 893),
   (194875697854115349421633321405206392808642889494747883261688306032823663841942549272827625081446379719014447194719089913692764380054776693020888134042674221971641444032992467809046359536894671920885836588779956116649311028144308532149016286501654900071640171296186463268596435567486263321312430398754368064760729016635186361425062696784123529985062750841353515348969998818756262231520162100139776372036612844759301816520, 884),
   (-353785074370106777412104421902615818708526748201734885581938377295505641495347366145446561303418061487058302215700466975429856769556580668849118774523625911128112538215528889896152083255826090140860514333282688297346712846821483934840689571596290599885159985657413415305133545537001080428697833569058102083395747916341210789241409534512908185776279814512565008303279162549501804373343646571975002016994718557778625797331, 894),
   (145995308603509318051546893836312952089283098553172335662787791446974126234337408323402067136563580015710280744632523494223323521954458500211188391773397530999403144529759438016064823532966809918717486964933291405501244106602566120181899335977431686066380708165262556591933247439876604960837309960763693333685578496421632117968935149017751648844377603121632590050041176669194811407879733543003925284933368152124575030228, 897),
   (-791446562293693866254938596323093169228777925449835083427642550460928817630625705586139746074373268174279580416124861051958155240246213424044348140251805677104875129259201562458819156833445487199821832284552389297345185997818057011605536023127239528616637525387787017891690612886316968584735680958922825667956496951730770708476459482984494396431649555107409586479850183369552276095486602576757005944626924022473138432206, 895),
   (274908795917755175125164392140272234963391636101866548347166169459527828506545273176756803722475308305277275387459231211364930054591366553178739706751635396049022418251720849409570962574525339653450991438849888644206978442421584848834672566510807291009128753277936205321879605097450517230707926327530885762997110191877480604319517271696480731423417237450165086212621573184931610084719705247685755633097004816207700936560, 900),
   (-100337595466791121860019552347831917017526640965792247242267664236709795266944143323088523498556848362163888997493697112470789836090441746104709398160027994617887513172193438505007703604800345896494972896792536757869950548683342177299197828147959834604976166602074849988217477018611198012873432053412223910407798769258505595378313916544384575609388242888883562338299937235699382086203647531423274860592131405185079852121, 921),
   (632516460342504797745236015577507516516186098464451868235403069615884833991556736412685454423267689720829476725476477395117371388395631811367499988187147387500737523047314114590243631620003268840371428897572632908574162258282001800931152455233043429723759037670467007913936780678054753892128688598648115273771347299931004110512620265084502821990551500423498581015577340855301479363938025730606641916286144121959314661703, 907),
   (-404036515780513482847696468883335059169149737775521724663862676066114526991322475765039707543128266287892799182544348536135946129435812472886367192321230450182625753724969462622558076084944906994086879104449973582846721576627872669544981936816122634246806201251184184549242903082304599338438172663849653769101140129492823146008683967606170355024237175297833338615238605189081669336859346256222059312155426009106401579220, 915),
   (491654776997627231020428229679372887668237995235517431600574583845975623052311528227742010514679512300142759642482295942285005885537507737856815652180610808915994797588015859659337176771034342797120835952446709912047948534248474813827466447567128971312958419642814916123522131511273545855041635395894476835201357061406270990809862481707149801994634427210983541848712954625335792476834972649682522030692664751588129214375, 918),
   (-410612353466155466573969039272287852768868944127324878881676566615916178541526846946526865171137653651653952229822254486656229305592489089049837270472904102211391100765019766095709014266183756303595784691820350235096498615908932582912152045176865292912451838550198788027934405002001709956402089216548175227365413348781369904269835306966190172208879669237414173979819259136067063795266525694689560824590101044114846486747, 929),
   (430346172638514218151892090894147790061661904289639335139126258690088813533040666517830078975865443003981291523197221891741746134951165095583438136200850986997837171936827363861214822778125336120305818969747550910949979033647634125762480722518715323255016754096337123771402422290772328838597079561517101486529058552686439968892885934609179585100446632414077272590223118758559737702693230016140514678146247486833253120963, 924),
   (-861377411586601214654266961132517880043222268421169222661765206472778077519094873262267091344838580372579305465551190328693012089609197834799845533719988505166680069335371984621962020016540291990213464178483310336011630171815062898855847566717136530666237181403028885239325301508682521899099802007137789263411129434471593002199755495383018554910170637404043305105694224672106943910055190303824350551561035174223144042292, 933),
   (115664740444369462677289497680892703680335302573750388428684943056020599719573442785759887992834232465048344743389166628048931150682680480165367809706680579306110760355403676073669859375214786040852529388470275878610964615849698429067156682211924045196118479310226387042176201766642097270693228626068315054968695198199415227689182077267307600806813815695951559678936517755058281096094001236840862508680430261475887033066, 933),
   (-772760068546633702029414786402956073796414780819760946113519339572924957100081390503522598341078262072530104601481094830670835165982252064383446501034450708290883374070935381770130053297554131364404674552630318002113481980698940100294251840513263440835306625420889423142275350557421204471898881528173350430187269877351619794284005085416522528604637891298125948113461076539200101251078112992242569298711138140476421245816, 940),
   (515209330581170381366619692228796454860623808848345854402409190561753546628787186766318561140849709823902632700440937201016853874394766103229761379533829836282684498496982581859686048139234176283795966154500526502695978241066155603071105880979468441190057126300709100233335698381003473701822896215483023449645945100847039014224183051586246316064201085120289949217881101921083795743026400753504649866122120838062693764114, 953),
   (-452519304306111179956541393712774534116863279824317304782003451828256043548201760272048163244049646398365039697034548296959119333014880748104970706266336489028540146676408937581668408498320887646930003811510040193132750336958840031707568275444076962213388389850426741830423864747493429303711298773159951010212808083175722880946619948732539210393798135731405396381659000574402156140825125006288120691042884491066014093000, 949),
   (203938934842581728186225525629022366755648876178086465690278973940340927752287126042355301446611833875597622446750660583567312553504639197892705557288362997565115112953697955426440871451634123349183301098404691973474833652915385504221617846923950240658215446113909715461949993807732394544200107862138838362138828792207164108898606236833936919078238779948956767299318749565516307315113353671685701037833512019172607846092, 951),
   (-666809470488976500659906115886630635780006300369937869777167790168603014886459627506159496533609414741288207103988436858443540896411533238766727890344858141674655859290952798605455022988462486166531067614026175321005171633431126493264854818934075865834568039143610073700475412209914965968270386453429383936151742126212738221871625934764370155533878094802991015575717503222659240271208230118543199384905172551923792594895, 964),
   (252857572880704585180738579753130628492258398069172663197598176571457546420426153414834490572877800869608163097550841155699675599051169456360582682324299167147215016157717720045483896435003586216465270052562715853222373473435633452105633031326835406820980282078511762551527823331033790110044958594050443832374991691736896491132442492351434751986825305469596022321658813454377278841454447190982782770089610367293604507490, 958),
   (-161212206193457835064768659530441811763767866502745389885382345011558196335702738094299390208406616635117374726695364268171052719710273601071341089970549786676530728243303287357377299329536533306932694009109468727484683797704996395602897546932972544649276691791332086973612721536871972103845582058779728812757143266997113368735626569587051994421814573266763054885372631411038269696171291479652820855548140523937433250309, 969),
   (423610869812230514980677470366684193585559675319448487630527584692151223151862720176938730647256976601925904242158949579323121419981587534206102591107863398709097231061701867733453161440618655410304622493944639297191039575900762334619484620103208297445219381441195756656868698018024904920722361611427700188722764021362281548350567586445183488466023787464950347578859013236092791649071782831312958161892600172314639540465, 970),
   (-631548248216135844182385078086956168991106236915725151665912327295962981628781990924303303351226457455776061202157796153261775144138583384367445079015787240472613965101209160022330827734936819380360933883233998224659724882804959832047994371629558049829030544380363675729034085166386005667833692515256142504353069653428995920132945510337947899043042882127506265473274327850336710169719355046900855969269280365660588776471, 971),
   (180308540993492302485705903430892052654632340051200269541259397100497658452170480351343454109861731935554469477192706437373993969032734812907392103342102745311926560840537094013322952127185687803978573470361566421688341063450859131698772920183253464178496272507902348098643549758712177885541905581556177635053172780495887945706910229544074827452565890940607149085387175484435346866653245608369978896515373805388304053729, 978),
   (-181468219769769749050418904843654322604372682671236918223168138988109935961941878629139961477648502633263540154594356652424163553318884879637482850012980647801732964178992646950645488303676617049476987109881773155225018830667224623307785541113274737917904530166109753374057961123491210387764382343137215878351656868533065710450812631252479710877538572539661268291896449217916423132638204238841800485547296710053877976568, 994),
   (121079032440082225602325384320920833806928693294312290005044081405711444069264014019698592267355268859112157195649659754118569356347448949935246385348516984067811237022374381204787341841234524497713087121267021725642301629704069937699705288082214968057870916091994910962559296553363112978233444350940558848705336375457566965024448179854498452271058116105183596374881253207436908636067196630691803380867556983798332675194, 987),
   (-520018978877654540422065909796086553877640467368712000676448339535829445351168772475189587037111240978394956718370595712676127524644574794836807093080305322128061619779295572386553153160494682151156640251161364025420306619450684403247585918863347282786833562792195456995970707769704960717251185017621356029662795907252119888857687259048138012033323677257552121411712469031691849660091824562485013061763686193679121169147, 991),
   (142191538799097566170028640483965291946906756111824279749547001649690549225841942284229434461622635385108125489015477309157637450978570019277887012738358300073414637994904722776793284463008042307654267837355954336669169463706433050757099841753792745256785795587061251790111046648604532563522922057493685663214303370292457394637654265173598368289095885597864283155549130861479926494810668342012441520507033146054807828945, 993),
   (-173069521797941893555201826737589828160038223674009418995191427340945262585640317582877092742215150206168767365172818682557403847658175235450816575757701360815770930623908407336661057169944513178791254187514166743005025406614836050102618484193440634925464908635367424503682178889549634575660995035636017370910199125981338169417869396166184293748683075130398781173284025361102963538917530924307386449494938314764951752131, 1001),
   (535402544835965019024942492313492721434399129679683899551311992992492530465705677605089893562245607422077942576844147684051386180497821649763041298676986556502588629377200828634722301877179028262411304332971242684893491509415262020366001163787211839384867835057232984238239373593619671239246695524792888191360609990907437773734360875950720338408873965879297372459402131279680300807750647800013356279230275199879094653714, 1003),
   (-976956262307391383784329723258842068798594468585527180358490149201016522340348282353093109498452799106128079387064719134167235451907380858646032314225525611959141299117482115874437609338101101112293999823458832390886340795255580080246023902183884013061688473888182600571586517875035014078824482748487120468900557785462235037937680557194871935418036884401906222813408735695473619459815238810802352680332356404713192315950, 1025),
   (204337620170426567354123586703596595831971895826085502328961078863945457962303532627619228781304441141985535126990041891078509980979953583049799101414869443979133180236689964929288545247195083788933547499482129086465067924897187104357742126288393025350476393279221171771066329810873045893480407377931430483560511931789038809537117388615978964308437395523332310525624515212112308766859368156812458523343868029225932458483, 1009),
   (-184131724208533501097731918381674579997317573610833243272923927941174930521127315538513217565970473822280484470487067292724272199325970145820890273304200295418957067466427762287248293064298947816395069494698390870939567313627289900862945288361182530026197107671608548192640137200510001074727626070375788672609996791973612887543418420532193145824107123094171987266925403492425999743009900705718867284968453193983162878262, 1014),
   (250994397343279064514540168974692749983475336661264602990516401610494641140640655895147229797955496832870716898766848306162729443780546671639771057617109162910996387338093308571603987333589565252716773886443910421871381899628746948080892249272084283688271478801613454644365393455022474241980006168686222431261476097096065771890859383879059670935945895132165488138701882934799883059941174056950895841226922174018578980486, 1022),
   (-110343862015381870230559504544889488733326286025932396882106773688381927143708549796468324401313062462226631295867292566228903860503095255789744879905675772585061435527995879860475416104999192842102974227187655884153321223946148130939885916540029541505482986874478823951185473526903076329332655926140419267718428755080593019083824282266472069469983806391031209894741238526484569895140915643542334518663654752262614547987, 1026),
   (243952369703931549595475582718833563051109147531695194256390512225514578644045424350224141679252816109601735892952029385883933683978432576974594270172260761118764488652945709643002982528877040355010047877549850746301250715532830694416281593076280158023333662774493706841716340628126683982680490134392383509320776561164928478341473034016392810106010974018327245662398170445929416336371482245602116885495036312515379859279, 1027),
   (-158081919954731233059370102876653315915261797056583620754143315972536920428381965152850374306885361514934627452302186357180361612773716102174812756419623662521438571464809786890505570415938699909656736361940901717555669397020088156529228680157737820523403742709132745322010398302062740780053635116642548548849831343065494643287856446631505059526142011543306608443827181094419991928971847247312947438573937489008226153310, 1036),
   (751569139829435732419130081294189106994189161487895582352839286410896624749920414291515429812978831259968559294845331063855993012055507092591556568549773823006620506906642282580130274661499988862926682103885003068521890703160839618970425254985969066494327743747509891559076049801693097643734782744038334464804956080711940619200456605342916758339605573149872511455689530730775434563682158922029601238975285670508523945215, 1034),
   (-597035160360619482401050583987956958055194218669022971576357170456903117044208875891846796051429634350890301013103336267865908425721642772291854149624528990939042498413058867591751210226249280618071533096019319988682315005343031960568519991352453868594792671351711108084735533085448657712647001906755160035046479489103242560943194639309180737237733829400514200492594983855860626945505618999338682738501565069435756343261, 1042),
   (189967098211269707957916633212709671081509639327081438597608683969727155911672977320719605777361727341105336858096498020679891691781115685091574154369950358915415394569851078777868839742241679578419035913984419985072371383738127850248659036566059433233805049852696924233121312732652488341374437535156791589380142751015915412955685116061023165106717663146324222575205848746737659689422657756785583487029794726397179634430, 1052),
   (-199147746363810689705888037900271076210109822536088856729958450534661134230813049966601507411414627901596680863568777885946629974081127525785451507538072508766415418670036656196435842181095826988308267700351777110719762378684063592458064102242755827072667280856299467075744318980230854635925820840445582556692509436106511634901778710280398202209580474852770493017879586085108485278354131502361329051571646720048750676912, 1054),
   (787863189036596058524645230550296282662587049018559512562723779325451273737060531234145478887962216373082444811704321329506303898642909058508044966130725456510174752137939767181511420226694916148951131979960571022570735976738169401559142358020346935249206530604836550774133416091509642338463232016089904882140500356815796764192807493428716841196804056990926208065744769444103410229495037059236159053657129485965051043496, 1054),
   (-313349818234433103109234109005729755630627358189145665334204965212221866133349888532905787317336732294609570109100299489936797149201846182676693872089137252017380339559354084578048925786344005825156896821431534101806813930969150022266517166564825379506162183124638812300337957621622373318022606035045353893325652388485798909991655505270037169239704912281942529747069265067758054887230733847620309999113241600841642245732, 1071),
   (327174221836729398250391570355136572700206825465943194753741118189603418027679361255523107092452539790026802040535296017811569102901462580576958279018716010028902217369507676478904258643539631455135235994316081905935285042427226578757512606311770637375107747186703818897026674949668698632267598157039360289770318907241880165652434424708606742814411140410559845372483682016018874332084442259319619982020239497441168124072, 1060),
   (-904328392607633265278955269504305988810607671516613544081683934732957560986788883544115762455937185596196994062712702680476907086784806782246443264742829903771462688087844601616532921573305076457283392702416308837370223306111129423141467770242005037313604600120374855160567957168132164030458108907459683406057061537039785758697337957298518212038413191205193117923946444064341818014228236019783038476632050192741409732156, 1066),
   (168206156403215883279602864007942522893803433507073115279447118897607710537426403924717260414520426363350813470162632667237929803675752215082145328872010774893833754127112422181007268364347663610230803346500182119908761419860875331125449680307092218412458317235621790087460671383900687338833690361984788458868275874565960972413466345876488812034670994746820704348039334835342793589538540187055983591519845513387419541362, 1074),
   (-114890035595213312308633602052830752146848573266118373498525105584070720183812816394557174698012625271207159002952635798440691925113601722812864375912952163377062036082655774105915845248061765414170821712813535632110017571032443496251598208677929287346501391972840528276533915989413578920253254591757949178139307839521204375985597082894520477420619971830797146580987947503080172798679363264444358775031017792317840555907, 1074),
   (208725811020780935268988735528600640618737739847644671446132229940794046847093577824084095833399014672274401389474716379936645539064550028670608928041504976479243350614586356033923114837243046167753075720515330183524514832740495849309654097129096487167917543395139031231053807208191978129188691104818290597463282359300355402847354021705245394097365706978464114466794520226674602997877724543224769799353367589345373905358, 1079),
   (-442561726186069965408980458678568096071788903389797513617211953813891634408248131533598172079555810697852172012143128969574033162073377582413218474087664338081321170821436922200263858780595402984183596433525413833512853102909912604426036720063615772825754338083441784591379408518499990806995829035852680352262697905088230016622395765987834496831837966927257742848183787524990688560639804053482731491677425224548682362311, 1092),
   (168176416502152045683994873737726241153692176628158605376030710064483648127210662397016473065782122387287060441706589508342837701608681177805110267923582233146339328187431184890567579937077936040564492309864792229114151254931206879601838193613389861710963627065465540112905519958838767648112791831684561332356117837319309675544700296104141656539318699699180510313326571898035253647447105936465023265866718669468846506070, 1086),
   (-227806506213155057427295951695334313729815409839259062555614494518745239151141297220735730674035867865010818769814308400581237503323556842037371809360581971630700063812403426205938830415683123495463948552031001189319037387207352833775061558664058554353634056480385131384943970796503724719291887358916177035437559969590087844296536483632988944396486499407590748491800782836294072489179790665363870664567910669989259991628, 1101),
   (415954840635935375167494514212512286869251222714755834905814350510411709690679384606685682696258111226640040453540225011815817405676760120235315798643746348349027024554469546481110725423245285573434725920961579807994272846205576579023657987001259633882034797397783212213205978522796097042787111256882642499257873902528572029255397302675572078889458149085996777575047770970743910897079401627565069291165603279153337390767, 1103),
   (-150544361369705845080344045975838935366868420357100458370636526855723828092046281656464220605423020785728410526172165465903272356969918335645242789132149808200101679302241313970979671784657429217045667798319488444536108523463818080208109912631362628802295676291097221159630974802364423352076525954204642604738969045339890305570334558259018795730754082545783910254982340684687813770992328921848017263046222340645322811822, 1104),
   (225920566939480023627777571590833378273353045847787668578659299870097471165100214063791426942077838046339562788320487398355506522407364215760083884551117753680694835969771245484387623389492101115964857900830118827732361355166986095835422523780961346952403513807295053309413428678959404115741522248121974009353431821069465885104751415467631619770708729570287451295764705538883589835562121130307598761813693226410320107248, 1106),
   (-768265845579984600230456113852056876624100401806055689133274089333040338330981050225258876003509958689585589903485399270200484978358263016137681284598991028034245242331457122760212097001523567984846010233547837335899244380560352480766153681599841366296636740541390848967276293317206055343456497917039635229623188069118972444684323191271417864922395909252186774494601409144501924130463824289852138987555939188519352983972, 1114),
   (200533412963507236207214904839442863690645024870329413536188408588505843943069011316022778433491279338210258313849413451595205611749222846727005045739635352315576498868781642085901336344699736081395671916664307182540691229631515597853205214268208872968539310480082778657965136246321435290004194886403480903993416185355173629865245480619965359926408179925332325206512611871075278534928295995965219035478804679794094330208, 1115),
   (-102516519976918117268560481213220120616169054750766726497529676421243798183578734586804591127276289402525557998222163732392722627074449958259193392817994623762835891704826921455118021999983088319605329595866211327463094525952883113412399794201709779304031443088478232717833165332018110642582749481859911523128240075570279478980087868256593838679505156728268197776701511648587742145700129036385898494353434738945446773956, 1117),
   (290235900983354079008798794561625753414343652700910951321885144849323130430818972382444506176416009217013005760809797952249283637478997861322075019288142362654528254776272832767824520865314857593037933413907875521187388030001826559724656224200413961504830551919263207892763439863156253961019590288409440947096348311627877618178226751221694684415133392430060005508063610186806593016708234729690249522390089478362769159287, 1121),
   (-105333401319130933412745269998011008109576513623489216410560499145806843302112712141104872693076974184264628080390152603886510861765966960174376819962303012321771606733378300123214969798142152323339597312454117347581531042333990466564321214180707552664492575754958616200762663762622111062771620741033635908434108020705983200549644468360835554921376443035646448443839232834536870338593990289705858898193695081513049505424, 1133),
   (171843631983319982113940616061271526663188466519876343822939478618805687150397223992199458971275843513927719614234277843765581867375959576481599808294257721334138022683718118918207329525606846661610113845373360561066149936315235200358342121906482386464972816956924660333146578320203408127869647535127802438531267524668030227751399303903991143716616362468502956723496347029009672067081205173972923371523780478387475927133, 1129),
   (-646850233392158818168471803387065863792369122660372110726709509324926842950308614070364298611159332468443107380158258749308367909771244521648883664089212506864270478421814485078201849383280541207615441680459410787240988273861501623775780566323710939088674645795806555242553768950795038383425485330770912826115178259886089807959179331165218201046822482363978349028853826766102069188606151864359465610715449903857038220398, 1149),
   (138405525229780304937917249978107086853960679573619920212247866612706099381344112603811069045854932821207784530884573423609406030712975088425046441305430320475747587262706165175163117932659462461518342181238272213013369869445217281336828366392779486068861128317726245399252677533221494891965023089808283369760177798562408735132866118956458115542761869620936210982712410776401894957649445627241575264673566105441683211214, 1141),
   (-170153076139764901762463558063667980235512224627541995100214043197416995312200873902893304528397344388346570326622636000381385961087804113384165353227220350888742119441516223752380565419357005105150701731072759443841952123745540321833119912273710732456404479081962025816175217440453046660653427810385132561847078972241240440440860211586244077749735551531790689820848197194455082055791367218260973121539631534688896911959, 1145),
   (197681628751497429136139516367953359718583385162450880327610862469093943638355201995878001466258756447166076320354684015542781565371964705356970890269280078908481956210324920853249784641340580296235204538638557918960433455739093576212481793496737203519865976398805518836643680173229107826308618656126882719961726588570859508072877505830923155318461790138539382752458821393332354756268108965583377235362151415225045348675, 1150),
   (-324761386453174888277183636994230501089232969987087928839278519913578774237051979187842229390486241926845195415454435694112358169313050754155587898273915599975931150663401290552146078420445220876647213626875493331487984619484473835995158650193363647517386833831337774212136004319710702031475693895731757242654535437282642110016062412422394005514800008668721566947339516907377773764276824726774270207928941274256835096880, 1151),
   (126847124839074791786026836834121999641844373482208651295764461373597929243264783969714077558257417751389576444253351399205838371885438877304492802107712318212135186456258514202715259276361999863403087678374884022185717599931929540806444932572472769902247039326640917341179677367211722762295359113868239589020384776784905267941181375653523328380787502350483126092110717727095993132940866109279478766490190760373506221584, 1163),
   (-231849092498693345945948190320800539773440875657345867681383492351358761316277379856975500339671086716305839964709847232899839169224928648029857654085571039590297919904942077432193369052881449830513951306492163730710932290323105273106351882412010726774277473751399885310701324702872730202571385832055364387139735101605458881224189099761072462945038188993517978397596850311408227563947241710277439355148147771974714650741, 1168),
   (605411458400999305152167721157204583847821302977073387994065522056555637689484512470433881952342956057887501212481428957238751045646452039842490410551879669564318564518668699396788029559713631575212415714638082172490640344515532268860027804797300853453535927890127846719821725662217278881141324863559053148112240873542991078384182657766038682596905246329540010363904340296974650689641560763180797781220072675373220924239, 1163),
   (-642654379956970553198171908007782641767114210190505170744680815674908515679179713893835297148320384841233088210968880278750707722300094293570969756112945428813018914758971791850829256474732050432102489621195501955067566059387573724034942230631803477367168608632074151561344207446912159132823812805456814645140150458322869570761064234369226801729605467271360275252690203757068299528135598842990932547713469253883670202171, 1168),
   (105925982309001711817758470680803708054950145190635970480725532908549343933073887143517352281595012906091582138887875918467553836999447909570091651050262685299635097002381183505030047634669471821851287304700320151000338882393837955800357560289065560129026571728128463050834653170415399001724739945278580042027090260949329566009856763621791983194638499429072443027809588628583553880389074629400229887036588919799371216611, 1182),
   (-286779880312826614039346059429273644020504976815401592150239834736087307326225542044377326815535417734275045025301252774999018549759160170958834377286554141381354152336600913481423322056194952910644487296199878577972719638090399099356125793929456395084311419618945558749599276196838684384254319033309060501921291307581066108472573748743021215932539755850256356520998947135226371835390165169107452978122331864956908661666, 1184),
   (126250807385825216914578273459083904682355661670330241967242116084139981730436652136206697711964837906659963718132696848385048030061286048708118901528995394204549340741781552727126157093016578211743432124936646394522552928879710344077881681467834607461269712087118566752278883831965645869146480878562916425736387858520281608887773701963963137290688386560681366310322344162470648082901114362210027268908567252576302361952, 1181),
   (-110410297365188554223480576207654991192191877681804442850961244304659078008377006115500899130305511461765008788909684172947730319591764895192080104948640919003348082551622863421427337322565413256011184689107912518948635325365233894590112491264254064043211870753563840927826494324449400709939426090719062764530145676320521072985424298115474625214914781667126940095269968139921285596618493061438735853690917352987749627399, 1197),
   (591753836676565652556224404708254108187844206675935217932940997601417056078242789170526257292416176514090389028879233628084408386073338183386861615013674984598019698403578436691196543537936912803860346871629943928756986600150330636926372373423849139410478859962836542608700614742022816221954917011640519459625250076234908475812419727724684551809654685543759650415901526508784016759242784011550150969740026299041810307243, 1189),
   (-139975371373905015222949069863898259815463809512043381822899004084300276534845329110836637292273904217077308226151754619739593787073457283621238729290589207547597548908218582209024388003504098861346188278916508664511139283160870647719431702665290587043772587339957647729255500391932428816684206293804806458646394222013440372600940959229216505972730714197672248128691788034822436647378472089631085533900493259629904865868, 1203),
   (209488790772910690613466359914075446808180229272430985662238600612414762515901915296296274478933065451824216809924282690883675191182695193995280922869065404767807275366362263883711621729215483548293830422629654840363503168113936379599086113220304195030636590627779469937867658579141381979446412061808790792301834682200475128141755578738823575065111358018717342334014165808277483751326743977892315524032447961994221284848, 1204),
   (-144824061685482041457284283814138796073352832936598235332491917999320584092739817278119746896819095587596424319799597307967852703959218511167075572715472586907380718050029461129319313668579107774468603961539963122406322671597857265141568682128224883633461041895237604053227061342965402384466457222348047187766032665850850521803406081128075116823292990889271580874993146860870605303334940986824202699717782185568743884010, 1206),
   (136906044114230927803964449547598630867338629090422552437734291714085777574962919093769381127164586817486826268839695829939731689571055616855871219128913059179016316427878542190429693831044416764472687990208123587708615767393713105875997207468917692336664759798696739293375565414185379858273459355090425075687685124157927549760515331820340901026611411330479740283767161825731033286396351476727992770338428120852448805685, 1207),
   (-136623833884914029966388485912443289304959914514284095445299941055250578395236743101287234156262418124964242766765093857042956594137555409010879019458034969000053950570557086915845227411262914536296989118623207276191181530663856303132815466483987345853851600241189519827543901470686735686894080158420157686331777290927199334525461109464590658649409068999026230724167658491404773468002030209738003136442199537851692042779, 1230),
   (675667511794714323385528162532534695664965771012121136572172425250646810624064477283335409732303690922245918074603740161579224837123311425836025627657409281625493575900375604928541174783682303967137611887944598165892366423924879756427786704102983345068604297418429339061352297330782444273418510567605213589900094753813324099988737486775451329379207862692387823635331435812048705055453696268091824664058761979396677604801, 1215),
   (-781842112600034139265286297098640659598249192337892490018791623277693143860153230314525117966826666413335100087811128218208965181481264895547543320883023113907666935420418078842694659231601240465035392170588507660072876839768709841062283674477172413442665743756841953997870926434808275685575650693417323560330071757697642643373405652555478187692088764168764683512502719669282492294884471590278996274113481523985844154472, 1224),
   (237435457987629442309335133682177294863220092402536496896804499192627094027161569466326512041326981906255671057420308279844823503754426300793498618659190236974715843866829590874915558566077878413455976013584301134882557239769840026889049822498974074008437783040462056019243782806645144841541694478511328030585379257843812757279910271617452759063815512592663640323507086290417288878628195706147589812963603362055619981850, 1225),
   (-650115337285147812533872074016626099043487718558267251906741752317511335473071613375702354144234609954971512272487163585206623626404051151914470515349032692545672925061932265332531516887808675791682067163279809516396613273124979699033987917079162611764851958448737058519433114614564761653761417726540736017955123306558350807788834358790186605421193630964411427141675169287309413517188713567723682446083407794613428710594, 1230),
   (377235459884959970237361333518448705412724497838608281683289947201833117848329189666221352825368879779964089756558204994889035714273886145680492613945665195419591791625565493729619725055771655590463160730156152040225931314547793760562285884380641876836770609653178028707472589171568021560886982764759788535181545956123793536855865312224671643163460290913455146762217736896031293080944115041294532123868979634157189191026, 1237),
   (-568072718403326163199964095066335087992449669349571329681089590583476217112963238315076535116389016021529235631669466141907741449607110236684729753648082688818969643085082092038710203179219685392973895824117209016099417696105329030420211704634937285001287517948257429987343068678542555874765703660536334565908048658723310195019480897548350254846498952779301002690285688071700774404126460072976091705893444943341615620384, 1242),
   (188968496372274522632439341545445003945622778183347679785091662706816357275563095677559600809868067546105546607690624671950393364456406170264837556188768890253273477319602252302997864242898685470304233892155691286918826344918540037567460417173842164454710077075999637690628575495723225172706181654062159755208640511094627880114188240158667750445772752960574444732927340855835384168433784003230512458072993253829182819560, 1245),
   (-933255277615864412320755159258039093243154847876115550997253707829741443591282252055490391648405640381423502237799359128183440437223249473855830669811556431316131341257664533141066480084310345127140772346994041244504715490154059738195001037880347761822630738749860119432703364460510333204602313891160661862045873809082842360316682442761315506475492766329555340543349904124238922017988759798446465908447118312128159191897, 1255),
   (675986528100616156915380120051345589213373727153170063974675764060201679804154163720773815165942934999842154009132438639491070253679526692183716617293575241680466012162512874557087561161380631982433376502189811099897005480805990908060128044514802254133029137557802021117173097649347557939614309419765075925391842426716107778567630053062002542641671089266383375883772265621730738550014751585420091051509027645890744942553, 1254),
   (-263093226538623513149021365922520256068388510011139452627550707217444836554298925501934462610635455819791620128700744471890949449038698069191643574042334374846191977420599688437089681076763400004232826199566580124873281798694670387520824747646936694684944651582520305201427502459674332487503653778311911625985099353890931779349809447719378572124853577140006393497947045774879648465346739968319453914573665968318173192568, 1258),
   (255106696849645193671650688185725510799620147885951879575171811560914123486280638044362207586786899380711070458228966789282387366246676053392961590989468862201329820734188151264163156173620033912310712366445400044447262682416340787562627765860992851272576399084077550227360058211462216646030295960166298605185634995739779664511894915844137095413682894374442012639647599868741304817918513547170289054250708137815392196272, 1259),
   (-177062437105990402674931998487580988810841965734005168008076182831585015196847784430033867505923049972383720189976532316825852759724511015112511529433587540752328182377105919732733712920353822163950400863523722318942813155354213175126966877286321386943276457167767933202091393858404328972463936784562907720543134731748522384574633285734432359876216766725033731729999364756578639589262393716460782748927831780793740329990, 1280),
   (139312692518201859826873649834000063113320834351148694087408150784712407580908843002603827095922098195335430248385722828009968487655601031501905161050808541173483452290982099797919825353323502011062465034299066608535789240159113541868887810665021859135523534577151130598969633990313261808041411001076242765812207923146185648116728930090723763365729936396174167493884485924600934525483119061228578500680324645867302681377, 1268),
   (-163796370673849817484340963115726534151791607236280324924150512512632592875287404241717780496515224766152532602844336048640648166227542536104513669014066151172418224539457037505807057250434484345146207138405537045197178964072559280005529486835368120317337584154685453671480752556140328752372579603287272823907444216706727059842185821042352634466668293394861738692939935716481013035834617732634224590291533392309419933328, 1273),
   (147090492193820023484502033688810886861852639228472759298319551562515497945625837599215717773640035153206827513472655421679520165035185466761563451478649130793620109544667315959378324121744233350148385135816241495610764142756341126286220734695592363864585391134260747369256480774555601476263041029639854178365182864832462833461648501746968487864965586480333752487595699495657684348348592832015229846277346537412585945703, 1286),
   (-187719295218918415064750020905440827572433169385750352200635427757433154517323850062429625562485563671284124377265750404626143865963277176402965342563819837084997401838481595200372170395310373662982826591431992014063998283058115070355584711562443562817183044749361274978924624579864209786451878800982895410773275584150388083899784386962617916931365444228786690320263538865812522983342686474266244782620711437264068709095, 1285),
   (466410971276420693202366152193544523458286935528760601791278723874827372467566888573464625744302330574390367597456984737204148313649344299207007918151130510853063727342735736517723267771375524959841878338207155829431779880824935175149056830653911051683430344124364261640671750458248853955113703381183401745436085085554735760708976319375198924681853156639830037090768955771213640759570053719849560202401070750126006295159, 1289),
   (-288929832605438676009190047083641203897326345301058186570024553707972160965986955772993925461477604921364711234302069357012498388182941676362052553850806647006737753078562485734077479615781113765764750973564195295095637863191575163659530411316962432427910361627189603735206013633908596304723082416296288011457732947909494924053650276434728760396140665947339520072983227658813864138548905011655961433821296725818824951669, 1302),
   (250607844529422788168244298356766824414222196440322629571728540724437876299221496954123867285830921056259511461669755651572132999042579965936661393778266237982692026176097466408210835599326385562458925611248956286376133564574096029387535658530008428792782237387199868277298224036317635240622333818785040500479552418332506565505430191018441733830749335800095754687851128826019374958753964511120268187995743391384547560338, 1294),
   (-501652345605438246101192630665888823854370443933179827978963220146279121329574044228213969984329730707846364064477573216089790496752121656991379452157738982951096584108040796332093133587775174211219371480235517534778163951399245981510987670842751997555936463597542166108492361628796436508137306997141605901669716339533006091773154334354244446648829006210638775233930914417839233990559058985015560581277811008048560851164, 1303),
   (102343691936205064790194600675329938349475516332025579886203374894016452316926832767852225307981377490369160167080657276776996604599922575190249273017086113829574663202335427473292068862738567100604223478895048530912333010075392447313711188123065960846258949149571526889813192117724398458678674484401113570807868714689762661873222091587786504984601215308992791760807588130862616001259773605774010808061545982319146844741, 1304),
   (-389205370922338983105388132226608518729230081748582081232633294607561069757934905220301736935236553203021179975996149325058994001465352482571148662513186277841064644845884372316376825900472235380778692404001743979327307049175346764546869942627226339533617206818682197492263787664304846886897631825914500846100840233507642405166053305659188260321897986151830766677277516264990695478469090449668430414742427163507193368940, 1317),
   (852287946883589106961550675127270030219835232529759304536038246881329034539294140001973167524149371351904613060419269728600406773535729533655759673858725959559719171033185981416848154192862877375348411201662777556569179643827274925580955060418313547662388888064048678854840510463923229369248514042103038739857790180490344923990395836777606252728832539296846850390082991651128425166325528446524506704513210056361178696716, 1314),
   (-802252718496448527584917343539231479955802569007139174047498566899429583435021246762420125514600291986775356246009369876871822295327465585196061915411679678994703298709672048994173628923731417527022168437242360227482905479591927560258150246616417468079659642306263289321879175205272383773324067112327852953015684462829574928239287163612908866538243956424334195364935554792987187026295419297104416310678936264464364274854, 1320),
   (308338055141807928413521984384839453139624210278755678937327159827063385864061543694706338305845607783896187422180669962711600827630506437241068206521896712927552301744837602011868927788171671274323842518047700798437749443389259539590875016909484585723127467543354865788167094404164778123760223757238560785403263019271357099231577610783119053111734962415977960600110154379454495146455898353856966598262761180370731558474, 1322),
   (-342086039932993849665319641054940657957064701543511717941255756297257086279854912105509245588715443934916606574116504515021823443194891969304901481609429386532660632046169615593083312335150017246799163721050248408245842737489738168448958380589730896561291108977296837078652703546234975444840368289325281048139015905029186819728246452175211496874503627023393072216968431422533486425186519627015178775154961546500847147876, 1327),
   (146057751466257298847711036422399529129186164650717172985937866379201370590521086952105123555789593143067750893697919461117125056701494208290244139990041548203730296477035650535516324137347796173452374663560030753469360180046379660230668819351647801006298557914030688502973259917545421972359057374479539792405994281359122100995860798297983740118183636269053008723039168929387538995212106804028937839261984092223748602884, 1345),
   (-677650468250858114115488966772615426608196252472570275397762447266737898985982294853866368547947037174689885892177015794738812123073312328836861637215410405588496614776974783760157615512514991918393597828675082543353399083989962246988499500701698806948776628595300306862167985748373974239189984801915311921079454206815580977270449212271876558166632811148239521820265871117654190383070877893031314907372590513916211299426, 1335),
   (199325431633975044014825929419086255867138042025322277701630519405467064640723093039004935266550562088049153757563441397066902128908108825073497954300403479258438918713287185035973886986095240173130001334286789273675563639726597719778991354035236347873502359480343559806242685188528056263738360736328089033078963257316339656372845278721819447597567104106469346849112839049738602775994348778696616082012058487680884121236, 1338),
   (-189151141879377800681581654270073708163356918057416192467859186708643281846078020785886849123366945652296908218273361616683776088630546934417128128751146835601788425702579257980374236407994731011267531115132956910515583089614811898377949329495793825831832036515705425810266689624655266978332518869028246771229477641281870789937181301427015849175229695435957458742192642441252273639715414892633019137378542709189794334126, 1353),
   (126110532226875863722186314413078643743677295049627612138078103746867313823650974407788470039178497753501219072295466558204298679021991671711901057083571660349677840304397840997074483381514474480661602660490046690668088731170670380133091686845468077021063400829579140293359786653218682193528189318801646741026740793259424016952009293462026946799198316332899071491347494944041085782241308017736239549963732065050373644222, 1347),
   (-182431047386618872545726402568577888793383368670429060521971581576411262572624911158657472577321069709615489924627495522908087488299539455188791856758224155166849269724418491401224257983095561709862992465225174097919156372263614283427805489710022810454653084411613723506969202201162441791760680262602019620260255790058416539271332852806000966628467639068343422638070295122610811666617281581715702361188930366816683991916, 1359),
   (567540962495526889231966824817013756464073334197074758518291152935749349790778611098768359885641185079731353775235180662855905658685332960596461694242812306618981661418768678921755102744902798787461891937770289226822070917694146489328938285295417652955453989339151859660622703672108766011367202214723299947922342066700414049260859405101748873215742181822582162588263734783986073797381601042853437109453923295892207179116, 1356),
   (-520130200220943601519102981868640740110586582582327400547262537112203290242635602557619919944654008685636240107691140959141752460343232476070255081154083583802829759350151827292226663930540353923273346775680761481014876742885368623584183289837102776303398134648530384906714002088533599134638068587789492577384399161711344876679537988118750932759114747583170890328368178624611772179554002196503241419136251329292209050817, 1363),
   (529637085721847014565397250405491179922002552129355790995618802436401341417971643093216704626938216980681007462540036883022066734890384314379455228077730389068679421500814620633108483556358105914051727652253628825377598359495122194624431898689538486837887337804522929660941492316960530690711424920483581696092193206778593769234048619801417560922714278624197674102852493775428989549231059123319572944995928119138345980893, 1364),
   (-328940116108263969392369165241758731857947346529973423315168750333330738700365084164644148036702759205626359093302879762815432097483266474529793165987239125665861091116285011891731971904709183780709938521728560947330318708963816057653513055017006449898454216521071747545206268764887256226670875547026320646567279234387949032194862213442394649730019645198512016910258956795512267827056720326623893157818030754007028751873, 1390),
   (386682165121672764525876009309682433905846138252556702307162065265754559818988217175569052916558003210725321081091362276098819373865558765392441891259364604111038920012725311852342247810109029126405767132911913829049752801329419932586343860009311250253694795675579141337991890006583244951027771966929219211189156715041338757230852152623881949584221867777698335147472379377185847065545387359412311541983360936328098500947, 1374),
   (-498813882129737247681884169787666320071301505912959244448573177868111082437413198096190139740675352239947779800740078588555225945451015976197478513144192399501370584716433270299752194655278812415285135070277791880093100754214470258927557552526842511106883482145786346340573630438016189021552725288178129176306431140338915115678210520469742153213813800733917142604614276295519889535591943324233025673397900620785256840687, 1384),
   (131082942835321292728201187965370153781293849727647281642632243347107790994117522011960871632418883247622970400006445339776739435900303218174821127210632404478733403549196487536316336006714910703724551221453094343361060900791226544014729942002099790795187224372798204212702312763267693566968526720560233096339318837702870300047664096865304512018152678517523927270756028597065338684083004337116358207409351150654401433619, 1385),
   (-157582814046246143012614308340093734163132344801651564882140239397830162210048503239223032153207592423742728663849923882764270508383430225933115235914526163699853395362137898227965898184397680060748713911197651927033800777740532676624140743480626100636421463671850222941627509197014555911616652619082133426636139378446839624336716351495277344519024018325880841369785660996680347364004389789843408375555640437808764517574, 1390),
   (165464275936756845244141744649042252526422179548826264895525202309325955157262567248542634403262727333227860050689867379387603516590022862181243575486613471248367853398228052544721147265851777032832601460012997513721339594311745175286648705841892965869047794362231732360782562255238082114707897948447894926628590547055428430207610265978793771253902948131001981476263629620238454771463773381404810669895517508169486253173, 1394),
   (-425503616542258221625182447196825506420675128383045198921582672588840635234776171356442697786742584274822371559877600279435282370370391921871026294975989313139558507967920801080538402527644390959373734824511207128515195443228872055922505761737778851583253730605378167577745226593943694923253932807788853809593654893270252935979148858490950535571781411394181074476905321332685205218804730597030132558575552701330411778892, 1407),
   (112995612187006084534165975512292105108324847652560340684506888558121437262062534577481045822340634565417640895425326500300217457066408149106551847670240105522609010509299299442267157581105511111101190497876506263644795775679076555633432773325874668541544331004822118388213174447461199264236655379275799307660435090199255952809370485164567445798599059603099077958786922082157235364832002770784023850321857153135831022019, 1400),
   (-654982176569343032302750358381744140178679342458908527843415919707145508280309906314323575769735295123438743273760886346985538988297263873453847431114317908884349777511445167028787099671160644947920495796897230022792455288444595653531917961028522173765775235298026848810510804893008916660455652634738896799552204918262500841396075424427995151174314124542653291483481833031794330410871419522692048187904518865618846888677, 1408),
   (106228381222993831189597617231357168341892458995400447336123304570882910944122239404712386478619092087295974560166546265537421541586742747762184915059968478410295003591995131446817978883992004770576502882125791984932781709784813143926791359781066311282951681732887035862094488269286359486622974604218515933334212228706936816209811861672661092436817800041453823016419203237799009075810518072543592140572181240538424422250, 1411),
   (-106797908672296754536068977002656481066584088896931807798555170119259757080869890171510428649895033150310759330214069548864113211744888153536693853264588713439283068798473636208077558089081583708473075222642869090018536883449031920504773380159950707378126066397030712515053678181393615280251920098976160642895443598715428199902818971635336744763930690208376036874351727999526689813899435652345842444608440040028092776867, 1414),
   (650334744767118610976514261828679040879785993418122074796793196479356138017770090955476849739858602182603340092716176309555671072353080079927062651834157487920306327215222645858462748667866953504581532750963696910764486489979576991638726170994055575558613459477703209314920097752660896226843089733328110481382128879561841802975799249448876397085119344721104244392201908746461674062246710451555258068860798675579191502134, 1421),
   (-125667233367150639066830570676769628598740177684369860535967115777891561367085787244019555766441558788373084637053304214825050452183073127677987699805357352528733434301559030724955312778814046614183609733594162832488400037829609211222087977674400814495885344244075673628629735954237593253234713995275830495758093254297763623761616255852988116635251334704200305443069823987379077080752081528021710886391227079088063926208, 1430),
   (961730063516235302144062526112018705585764410416870324930778684831875310790145971395035608729197325141327985416719071817272187711649498206923639272589623369616864130014156513539721953288173076751593082590344249042169046820040636768259018488090799133532244733210125980180280292861715851951321146225914517930955278239682421020462608321440480123756232277358629866632902885060372169530823708993172984650604970314404878751857, 1427),
   (-245369170848232895079782908180939987587878401930373646102430499090628962658129075470445242338436021375992305229955745881018384026955278347571017616718386747762211494860432585221879896688808784884357572526189479274681930312068640214971019078001877047072586280741463446107635639098702222028690562085663704081112131514380874956970305274076870717986237126004636434849687369986625722904674008459472207932193953341496648465030, 1435),
   (781493122256528964085743684150179121609349678836539938552859960837769058337424611815481747484683474331648655081487576078322955210703836366355333401935088741666695877039733110597792685714474571977061848354837469430616464410919406492070815021898190866261632802492443034859552862121602418290475905737994823761507696959563010288949674583317912016317810695392164290775548131216447574726790513443860552333189206267625688735202, 1441),
   (-117530776153800198229486072957955156193321596709406110303377423694163423114820495005013826487971755053601306661453718221188825143625451553358903473336348570109935825194050795743076627932019106720448513264374558550688829293947956041717337765101178846527574769134968033793713753403966570406619539948746767833780940840734903381609425718873985214299615069799549092073433431204487222059852409540165475600001158321731419154302, 1451),
   (232878802797743256224981603222230443128779929345388854083743087627843004461389637040237232613915258181241378646511884350138935465394950667061978459588835703199039444761885077800988053665269061510993057685719771622182790443484970352323339086900932802619000943612694741226212756171298212210701927448348716535556719544520952061408495869387225360378486964052412310876980296273026352883137151626833670721859297698665209089047, 1444),
   (-221258966413583688057718914884091613810625292545014011352745022127586492325400014300342962060619524247764817332104212593885548772270396069889149348143322206498244490686481052103727102487447310282941737974934244172885272424504437104111949472291408566797075096094126292358888507527276995353884102848072425841976850111745963931821625177092218320023368685002989029354862009181734052133495788491435366254569279123606743619417, 1461),
   (177845658744848659848343866119809794506106559489516538103366143126423612985715237268977780854514108285455163513393027414834790051165573131483202084785057201856432771378213201395670459875106636001676343431714269124520616118414577077433530020482656511105849483762907490070764915917659653684666771059051551278278498760792695456037484979981402601066558825223008444013313026986750426368356481741968830665719508193128666430385, 1453),
   (-681856110868972892436383594498919075491345934623508089705611295509238225394158969217465558323947953552607365091691573376406902588170819431078301979571183532075828480068464871414017859101509603569854896278331979099017624900060037672178728340539261932211937667275499452752298290003437794418374786316819100903457239736781639893391975144391648645184188892937405145601119467992740741674269286597077549284862180342558174199989, 1463),
   (336540928429337334059911787946131222225337891574326829533726270020007357433178599327612624964221561750966524574619616154381636934688276520250263739436317542889988396304206399325817638460727179989525643303295710821296015741123612035526215709382833995580112192745863333779684423544971162784972231315305685030186505301177550364240451055856529498901833392145047183324095960875157246679022156204941113668627553593796219078546, 1476),
   (-193119118339476704342816709495959853636845439314971570425784092245274713510581379850536852325892175060529118255566654908254515654966813581062144520946858611096894560971555178472829725844666633222084246142506879441965087140090354285760680361298638579988011990561463676958481035103497594611340439619540642334381121708410483411525213973317517250477646614428630812662086158842838748472700632293338663503274742690813688749337, 1467),
   (108583668710587317441222756385697536188324308408525302528324839326162098125031184533914611009427683593535165187766511522080510574352749929415392397327430181646711092781504746111461944543236881836174342430772792123629380476059486970147485480796294910853288279047093707740686373936150145851294727331212348275378546907215532002458595229656108822833354520221746716316701574410368444493389976515484115275467331511273201027303, 1471),
   (-111306507308426183159212829900819266180855138404621291281044476883257307173128798100981929702029374863502403672441436135796363613596074651118023475472679188655087175065920997932275289878792104279492980276278607271072744242429819734795465599295008789936862130483941452478937650679804593652617807857444409157857808559526434042121420107542187533713254735955788660791328946586095446686125798584184605023079290702363810922619, 1489),
   (407962203075288751181741793357166034356831615370120376949396564631038590208746014485009828295094205703627778707103561549783181959248767859031600257286107508959916289572602497265589956923491415346579758730619901182361336733017469949021828323477956986313981250656179312925143435527957063568982734119257762270644243711507372305815826586645426880854790292080941727956980902355462416287748658552437601597003199460493095320509, 1481),
   (-154108293085689290562263718196340708575071682985140130470112082943594781877351771424471910703506096380517279096968997515998598400011720168105706898062544150205975377812892373698538097013179981686942538450472502638640562071776729652334504623895288431583733979996243143307943898549787158118640162002021404280890548573501896394489391975254562688902469786307731862820791042854766365562424407334469920286991117096821053904673, 1491),
   (995930949134030400751788030968716177276180785774940645714909635814674490885560138368041100063353762099005544526836161064059226064371583535181317755124680264716805597307245377599916735832941987118662566222201936835385561415797268978480042742933155267040597228791935067487036092569414377589311982704594770397427545049849660074590391471549877297258388683075796624518097730227474582868439774482642304809211416500047968792462, 1493),
   (-292635817517660871208540445308727630510978512264455379876643853301645513051272301147529612072395012717439562891128278757679659464035272922214751061998496057047190527921647852683123558027014788925184740432579928042634978302083824978805273573441884601103188816490917461600675303438080051534187403585700077869291308827704501080100387527271817524252488840346831536782246553405617403445951817954401636826032714146904755768511, 1495),
   (481708874012377543410624090794914299337631772445205059503763908847256536646895100217545752813581182943236927158164469376976943867119311073173704630945978801514784796983886726278722363509944380445955586961704082021694472432528856089264997152384116308529574650440643925696230621328497125456034513359529138468324176007744870029409419109223522613436580911872662301383068364664946029076500259284618343634268754056937951282264, 1499),
   (-145856108693730317946303981975874085190742327036021432142879690319271876146988495798770145045731510372741593919091041146465430333883695696240537213355386033538767249250600086132683729801179863819699000981270813042756038132676711398191365434816115420758573809282186967906623734903845727705340794754952457368250402230876598630372613580967950959403735674597341474976445667058792853734456340670455061510636423347060859019985, 1510),
   (533920899900787240390694079182276911777512119161470935648992870559364678891821641502058867463640677349124422240632432285352110264566748121493544781227701763639517075352809650031579456181929482430150995428328662120235163446451072663463319016070340410960445474316820384703113842717766383268409625038633310501201499941207602011519213695336849863115199646949304269789709282327528500823168570701353018829879402635298453170651, 1507),
   (-322760189164053599566243034525349779426745953238492129242966111436356179999964186906990585192548917291614267169427146621349629162857409257143374371545848617746344702003893510962209395673883083758787437753956939862272889782110304028577314998073067128282107860855186352991701225694333513460742051530951694897078843131132935382107277505809662059839096198650342971681857078373402222045795169058139518977410759082725077195489, 1515),
   (103548905024320497368930749418205830327180382562181865306923504438321279523675055244293617404433883449622425437763528723115497071793364678218680834472056067355617988795878454891575226324705448136277855686790913549345904516935414126339936149823194704074573299846382252943106477728537054740013436381680729610887776334406484291561132261162615612028250914256450546782990351084101361465834161469976127578119134388990568656821, 1519),
   (-603648360489899542712071321660727254900692604044544457084109531418188911403362651759382045246562071848070500977760487196307392791241727816862930162574985286522389253535920574389584315408137684454899063192365840083662287407273035081790179060185277380986238754356541440557705840048878183898764608007687899602843672640785576439227141443670151216152359149261521735485352296222700134647916890307662511430022573222609721864678, 1520),
   (816613555040583240919781346937656973303391140709968859750824878171219792239770390561319360788619211137922745692585814763017845221882032913508798268517218348440514819768976827300661867360679799668935831077016618286227149686881488648922062322200924949399323424427710309276188850781433752996501096590231424156993142649507722106300444708461440489345015047957062694871230058441074031295500004834419419495727715048785621487296, 1525),
   (-603675420483564850404412453753436221919064797333922245518128136665180648914586645740675191421363943088095210813961744440524319782968902800397613436186663270461686037568087995687363746106727787537598639601008504051195973280834972169349305985385030122254221030370381482266335995539068089053148107268173067097855149694292683880318372400134978066671946288829522906745427064001748433045364509755726446693380875276006700361706, 1551),
   (310504164963538502459448990950333594966245819920566999717706449753960129050657372825963842498764966492068450127471954379149772225966150071577169333183068170890522974084427548833962544092496208131402217025931028113818389004726661944803516272377229709746331327012196143591447567501962719428164601663544315839358532645534430152870755120235629181359764707363202693556543776425317773672872763812616557975197914674888366467436, 1533),
   (-461674020478395437188591040971225215888925454938513934307677064074099014766633494228264119426972163290269971051317328241034845636701379843848756429317631236449225058585844467493642015214451711924074760624907704058542963829364593105061479021815403417710194738986438513931007050538605636379450736487594640867156961878343856022813225456502610291560445826313820804941565002500594296598983724433725280991181609473544399014979, 1538),
   (209697302057516293468408285747705505415302663300046686770077285074437650382399325125568960315484013446451344326135326304075858469973348027003389991496005590661880357674842713575238169100957723194348134042981974764309793907031276273165341850251924679435508701773838593180466135496627427639333507055080894027409244393690990128933280452588867473295277728039098892289315116879320308260317670463279097462901818141962667216000, 1546),
   (-961398531486295821014316587682649991070255328262757823144335740889304942630046079168702192449394467351093109695194119426677063312748405703349618602595763569515188555066398462486021193199702597229302783674346441803822941527751483283164789071354649242510183634836383637678872442474199421723302734406069426516479552746137159765161648705196873379552225343054766833749226300777566371475807083392892221517141008744041810354054, 1550),
   (297903796743452774680659762926513846176293385290863209213796997839308751501604652138125624746080036438138873769138384281016927695509603679923013490515284023654821859854516085008095733474604842127028354216875631872523098273777649186022482273309804208512286406344820974849847094401216377548445520829746653514985828113817504808500632500117467666459831259135597533006418050409256394166132306030887562846411090347106465185936, 1555),
   (-167045279109068010184111404036075624451623297718596479198171248227105904727380052360489489249546768513735441044004515967565090262874981409502312091360050188205868781811489293682428317402497102967909892153715084087776915600862374393763886350914169764224391021183046611035626224460309551149389955749222853315720326160295316254172322805622072305976701044925248983520806351139405610464372440350442135769412164315459071647079, 1573),
   (226894517467073705604802913875040477217056367126991909396953344180578420829338421306114380846176425601023112024121230395193397364264439801104675489880099301684159512567807971743710002869424485683812265082603652027205851385916088173940060371152312210838277086604731447161472589632949632188160351736950646354477001421019793242401659932563185609901052777806072415304269886857061559251073180414326107282245371805067582884264, 1560),
   (-378325461498442409029255521782760653453248490348621573825743591591212084666512928212553309543941729750796793002036874317335059446288388867704392293126577766634317347824959564811744639335991699472188051736838175632107217158473150617492108344767920847208458664205379369221569976497528972811368605719018139414524697353113081628457240389586212072837998890815474125564982709139048587447654816158798184463849802753527468427073, 1568),
   (102720204372528527717647680058366780855700134691426567311742857681681599440559922318796709206552716590377663327374171741135383571854190316972972596315781319149154999737126032125767429746079455578542284218446753949343839510815955810524635762698939088694034790352229103803798845859759637801899164338971084667831266073537415996891320730957095902386419530740662895251613024708453898408276801167394090708650037055215605780844, 1574),
   (-823342833597216621006548035115428978136351144640832903105031451073636090201347478028728195836948285542660184398738721879963225690205974424647498178269399155969707502616904948200254023772729355798226473519499186559578680626388286080337465489171299571522238507814448544644341044441298782530746824848053275070818251231238969317728115442370594998886779365499462304311947971431487360442327961519608934045404709782118728154928, 1578),
   (128885930498559523240209849122119401336868901844284235105438432399803461466171074727106243758639838748902348655048886060260221641054752250743472064265934527327258914669461079679202092675043865896088279753316474215472818105765211851268120560264530761666962650230457995327297129330069710160894013380390238613745379723803916168738910699620758198239936123045770947152292771473292785094906189041595466685701948486716809878614, 1583),
   (-855097391531615744536255058685429128861159312741278439575217438399044733586556492517775120817011034249860219071025561652811710890404513440943962458002110447716139055458441751779701566458015792940733866513021999712476482696020676547297536544112154561544938559539171106029275650837169754740856869176548534474371598006626598308513004538833305329825898050961255321097568503802461360506996563955366450931333106848844240539274, 1592),
   (189112617014016827551895669442885168037277367693867966464951335633408117609612335960017593272260158089868698178976512116167762554953147771056011015869981651312122759713236971517874277942037084267593551273534685522007779676326553887122653672403424711223191071441597331681244036575822580718664244370384839536295469801705178232789715524952999002499382267301469453947356412838637086556423832549617060601319200923913475557785, 1587),
   (-325798964506804489225782360403347985388422363826946147350995447970726278947010487224789713763751820069719347837810236538613210727892674023439918252716785427986000330554453937977267028021265332356159915091242166567649333349490791871679179995059121338435659378297966482196024556958538985646728579983660454922885511813819491059001709202209692241312710449106968791064522368171756909155501769290781670197791886478104124150335, 1595),
   (975214655976192853340082459588298383241864219909771676622786519723391531443164972668263426064121038446402790077295565704115473061420843899610202564539355451717721876090921067692458479303378396062717360114293312300966311318510391433965607719243172574815848116424922883981929296692608897533836939878407796926142995739517809857726502061925872959195073337749441692661672089010721967970519150124535184195290856547125985600612, 1601),
   (-159671441603378607028952841966789521771332768302037665258073887449798803826964564747913257778763806191954459758653456796941133723650399847649016954579360341082251444386352829332790547770385021884675532777693921108836180291953393956271986504506392153632333586444338954406909419335733525743159150606094070608585329384033201267311054226014317588151968396443315541173620540350768236720020811356653798631015517496798148063237, 1604),
   (180062246957887343041020564752491542180103424484892581091306170858545984235172076305933212634749958049843231455292778014401924181209625674085474930973137737384175534736979405325891426368586584836793809239231161911999309914141413276397194195919791249181856618887297206426568228878576231766538514914247969381198132249857650977464495256482177207795801695472000398770205504814737646727830946839225950245225799184321371240269, 1605),
   (-756363768807492125820048723894752063568267297938531982072827597294974523005347314126466271491376377000387360863514368065586926515307648362352697593456184098336247451810005154383331973785626565042098079217251210010538381889833958866441460153762719352654268534571231882534139200550129071478658077663558262016084446938550556131555824746380519025040319504712332589763475700637766195281741561214713408864977009430628947746656, 1620),
   (179530082529131790147206553387769146243570246585691236564248008301342385490712392474642045289850423452025422741612516220360281405885607719358742030042418950733414127933580466501129510904172221705441454382323919969977653353358761703994618761974449703229735598056373447446805854991514546583677992893245767594521771184613492578296689346583750956032035847563009219370096360378729258804631569992218510478613869762941813095667, 1614),
   (-142844058399499937698189883520366765454164366706600056203608957893921907988550970270283242430916831047886732662596129486263479311894645705357725253975995465779780980422998274255704888619673677220761156830816315576358252230845383636582878928559650830636764803092097995116091377848606965843246156475241155119374002852118551351707812134615310665785564305662087402133849583174173207552366608924859681126895392023745682039348, 1631),
   (226559352864442211760161637758091266984391147888247365729965818957878573637844910115543697781618738412548304273648089245543891408274346905887281683438301690926181079863448369989949718231610444776084231228891886073657104746911056658736260281075511556979040838744559503393304860122929596473954867512364408106622206287657910909705775447627311979125811189687395018627408140190656204543351137115014740609982534774361515785782, 1632),
   (-163428978343436035552208773460204690646455113139074871977830171896220493852293017149999051273465303174065014637199155407940978284744936901193810594884780098815977905575290027828614910920814464986539253174687110740079517098358130769449201776572298335114890036223652147347108413720199998412568453537542462464734514203697854102305270690480919198441411097170691779837274194443547204236492498949169919702554723049007630552418, 1631),
   (186286697181167907886341681686040800345289003544107544575864343221962263700282741486195641558085942103714039786689884232601258715885257232929582169876118061875836271452804052536399287647443987029901957270489816221652752470846804511794534649538554429144504664563851315252695878214045711523120607826424594213055069125961805891832962461186109934604922957147511195466943458807663855380356796576645547057455153021043530392246, 1632),
   (-872061062963057938936376044495562471235883718162007886095076862219874923832023726251797483299739972384436599018975333875554001674854879739188394645876244086988394303163233071735560954344500159365936890899215068681937622553794473494759321275108534181052468061470291923051449901820955167138032468574022378958874790816797016790331998001029384940177480547160181197061131438937682460030389772532702364529952413962756877611401, 1644),
   (484045640277237980895541061472463257049748184960574617205882474840578208274431012333891359852725765272459211684452028986562158302727637836762839204073348420161270635771082859126937120928272062134378939509378981921434149582115162867572339142045120470616175734261331790608643394727738860416614371723487386853198018697139800156929165207455260025143414796084386624409527048370680675522104410055293533425565787760846293892656, 1644),
   (-314330895570149679510481296964081765483521905816011049618483120112919289621028747889617444089797409255030719879817213537478665066714362169904265772000393877680199700800824037486394832475656737028389154469814757404776787696838608405650494928544609633145623919706602245799453946942271688386021946296131652325129753082905015767441986755917938816679241980258257834247603515393166903123520461031308934209083250850643240925095, 1646),
   (918017425990218955655026226809353161676884510002560111555895638010887250304995213721865292595116942340946576218802096960992198665581449619253317546266537790738286696223197487436360358854451767154237780539030944436113335455786378507833745490003742061029884071401961927031543894292847577101995019452226178098040642251747549944877790537360238725533028015587983511285845114014734310757750518751784472361190248509891154474506, 1660),
   (-323181090146758345450467527162474468811755757593838163265667905439350521794650393158457628141878411434930650669502106869066366143174002548061284432805429070577788545175796509480475806820776738207698589774323703274935971252110035326505139370829893891980527895029385037301072143360456402517334096672260316503424261301111309107330656225276172093083606123333633158268742805556640733793965521917589258300374571634873421581410, 1659),
   (219006870556269619928187522675133061097330452575030216764631717695099448245651380594151273560054024501402543923319830350826671723272565426889161365941534186711877901498685052185361382394448409800585411460452868581759679548203878963645907423034137676364716830913660774424379196052086530112090558688997494655901438887363937804102197326980435260108646725719202797836550007858149468185941759290407536653458151913253766626496, 1659),
   (-170265691557707902018058151616815018917266626634838882711961819394210840567963631863142672759215248968439324002050982010784395130379716247747202271863826511586430574865608702949406495070384044354299877045158104630661266880689957599641919386135490267483497382748189808897904881231446660182001604446034847847836296251378120266170818824774675315127917895957624975307425057393753072053166728175179145486601150230920043747901, 1678),
   (237748940263099985969938640231358245969014231330847016447782701231484382216413589531747557653112255469537013114868244543627813667543885107137141111427604282491415811735898394730688206787532268963817667038609910269903260599567435379990368339606168163540096013275433487043629679007902184470637678889183402957493754116215086362155324153234766824453562955280810554223116515897209502750972624286765682477463492430214807167761, 1668),
   (-427164176951936752769083550959288830361308988898031911964561752461828549862089144173058044231346006543866127682261513166928287212168017488340107906036407009919329091385747793323786318707520425709009817347471787780060043940288353779193583096932229943543182517705042060987077655450400849712773968211439014461117418934170728991840918266651463899885046106824342582762341050707705166684507704708497933783070630411425000039699, 1678),
   (701711007981783775454612826319028817450536783843355458008882488950896709670635236189742558395037294366396680413458335195841213849116482807559420863899544220606556977264734810811545338744089959991910875108473401256040278002784451605861960403104534732707354260132133156442349435760500100609132189227522446600618358546072879662985800172893455096382299133992540022558089779484178847557322570179743258774983755252431016872307, 1680),
   (-105063808431656258731587399013809199552783160529474150916584074092509555913810322454727642689890575830847520621894580078235437693935079460140841964958452859431661892334944733311099444775022173085794728755749643502157044559963419413775121514181470171056636526680819496614202383016252874118483174480440238618458223622088020155341467932390903350166726150873428242994367784008279935893827847886942109234032929579298601495455, 1686),
   (173872558138341611716791455896783090626973745004805185597729346135568392270804993144050565268913064384769298184267605442886570832394146873537320591304580173145684761401372056205434573012182716781334644032414590617153660715001692439129611767832007078825118273907687597462462796746318131324767986312632127211143158921620471069812330316330183845210818930319424163874140731485353229758490185866215509453107555093582138670306, 1692),
   (-485183373684205130826595982739996655820675853071445439411735638452551622649163373424856934660633918523987660306849660847564901258151456175731007914848354546545724534352190377804379436835192113096974039942764690326584348779280036572914940732644610180153555597105985876981942235627046751128514367135547936051806830571973113528669727523960604883339049067586909456352993566907099235636035139329598792800044458226638926839865, 1709),
   (330756678848702475470294042338823375792028262578318375296813170588097860070553229350885123712614530504006537312691479852837201235250777433208021007396227135747289713818508624302584106875574182852820324473824278599094580321528700292297233422382416516639600008500436505990829798755033716458936708986900196127651446668275905767106073632641547061723990732988715654192431125138540748387265248050011311161637330207491661034672, 1695),
   (-559317887169402086564285642624721638186799925865567601201301088337206183048618681021533871918884065053859160124594639985392897884313462232781402589415802013472459030339930345354420535112418395577997218925064282668303495704311759861317389326054256092600196152486652832538475056778409446535886326603872917828703869849076488613177357039338764130377738606862862802944139441465861514766010434660640328975140781210846410143667, 1700),
   (265747339750478104976548143856635952979346300823490152119712582698613114847845308387689904168417722193671735914884732364628027463963702879798236609910178288778213316051319819459943493738805519868910502687989697833001799142706313044366346281601281944222075138032698644085322811072357097275747064898111830345001211254528306141190686291719947018439410333990743445932915008477234070312233009340647307752877951713590638811857, 1705),
   (-400780934034724103726725243061027102115908817201498711432557858705908276169532998218365995239737043565573824687067786485599588859028020025370783834778278396855011269123067480529059846946043199542933060170920202424488002659525941758815412689668728401549640547612354591831443570525887223331786900484360693234527786461232276646779919682616404958520650319472828191351689951292820268229452222008007300743698863199603559565932, 1716),
   (858079192942765760154992370030560777774226609973148870046703987977836673930316255887545303607534721522407109765523871802944214324608377369853659666501531292912255074710877761382057129366890696529218754945598174371772930268914894862665551745048295575491045596787956842125947339286022916216372209132539943947257409389248116436603219028410478514855507638291935017191562378801656051165490970663301710868607995963328072484770, 1718),
   (-268142183520481565366843308966136409763143931342308054621442917794358082743771952299286320450733444628829210867908015212080946859073581263723253503011924539875688527347638623234195155722044147760243954534653965040622688260250212728681354817912871789491620361058320493462630306873430027612143661430513946345876341779398378067923530993701971954390918224360752778454931012383391524568296139033031392269167345529146114482707, 1723),
   (128286364058994028724250705560744476677348153754105090987910982515592998766045630357299505279563629558411387780875735584755446356376160952343105734176562740580504471125834083898401454424218513131619856556897775144938135247238890619758642687239856329379855354285543433093295283675330959043117497266222948808934288511374762650712198329593246809653877276740163023829930104949909398933355369796964956037267908823489761322695, 1726),
   (-448238742252429057252360248149574048027395293409793822946596960981472341513763023308616837920197211752322227951798395777950947340642916226013726505104206837503551142732470207121741289018995519519646395259429377154591248367707430488616974717633357076487947029426679799276074167030895844063610019828855815579577849768963347223765743265611254561102846405060401432528292194464124209777696990554275888200648475813345865217383, 1731),
   (342708426474210604422234238536584092878975905805380044379721968595193437184566368935158247849012820969355177804295246487800287946212890178497650163739543054838071965133739201627552450022032732117400905920091590770879154521575234754129595181299699362192177534867020680551919701471838631583426360978590059687004397797248271189646115348308953908743751369776887992757641574828639268154991283514148153107438949403115815794738, 1743),
   (-636203943264181110792804123201902323156626113066206215151458236230803226773618861233881207725768816551983618838668229849715790430552938629662704569848484237658565419800062874479428557546946380297337977229536585342060621486772971110955038625429854100634848450186292239598222524196697499563020081148623338015794045553520731599799736593908805153329939574037957280256765072989894131782613549158095213712606205405175328273828, 1739),
   (756126785959643042874426944463013201255940236067567972452960587105332556936944341123908688185400836413147168003828361627464874847430597216862591402716955903637734313293697925822084629798293094915822495094380945893823407306195055645169237836237201487409506773310729987695302204975579078806573452685714088411113269901702106112456425043524050486413394566182698787998522005576451836590110660869266046512197771064032509695628, 1740),
   (-295817696705792375966644280762227874817440864737022836221977743322445034701075251191634730170311253474997840021977760329130157800194000245926773946420260854106027526678509070954588971546860999821964821475451770478600363526474012891120797856734705812655423108481237393993590041445670236205091469188374475600275546442649152444686457525354395883096752086535121849668336370849779764101582580187257468675767491828249300804595, 1753),
   (929484370753959569232008275604237636831174684519417905746003446104243117552249789451750882555199181256187924199396609652993806041084615127096804362052066214616379287300424163758390425896858817973146690343468592202935749984169693223088021879860850589113274626855951632081866009375780532428060823899703074189484363314065228642108525180869678758852026218451639711925570699565968171628345831977738967632845118623348834264599, 1749),
   (-212760378528615410934431155774968658912046357139457243082764674452148880190385283110891598709209276294780416742608233793039375522578920319241624253093218142024936556812249699610142015822055743097346760596284509285372560725245542317994033723806135121349082501175214800283414424588821362877732014367427534997200145266634255950809764260209694780286641037825700022256151663419115914278765261106256642736455271101420570435361, 1759),
   (810744189204999881266211293048998287296489713863897997618518994540838414801874645160513257523464857183907110395764736465531233400035939028459170896832860467798406615209583519650692057902202623803106400633451187491633475981728964295141671453465396154524687794084506921694575241953952864345232647411154313874488659617696789625910763117223670263945704305651343273221216462462208169158954997755505889863545104611150960566409, 1759),
   (-308618817179486728583077379372634110674082546473249419425488069601930473230359907275979161774597436287966042356891609776034552322430368447885058365720260257980368558327274006074037555446647685817825418010283320851962141315812483798408249534131714242694380225256989244317619366950337448578075628422186346419904024175708790527392348133716777750928352511837550369966570637621410477943183797589856123493722086047360453357758, 1770),
   (173642702568457250032672197935964043864604048164292853535199238958949627194217784037167418821527920920676077798521807518527607405962640814150914678569928735751913335303515975117328746104351954879215130459592180535892351492968062825493441902272439310085180335611677405889963328654485762402336487865908720944675166573974917016142629910932083357483384133478859470940949392229718981308574889552612064698953320761993743312368, 1771),
   (-221795475221046399876139619785478962977371695861212114086214080549143404713880964933340046761007561931992109122318444002790026448959532845023414436884934971224873046104726272740872990596966970608742215606024768961936206272392799271289242012025398590735593920633720283935953893227082168313782323808028563746432761473823802728899706954986535388654870106482401839375684972251621968361554703766562117804234787384201317558825, 1788),
   (349567665820763983678366770308410840677148227414748775645712767996057708474542102900431263088184530959437270534670791860193294131092146234143946644090427911064519871975560162574011570370833098588071146378713416735577306847066673896923790643323856750321835701488579211239919722813508768295437590120086899902925145026399718754958110065138364244555721810900004723282624242720964306381066752399743326729533823667931206433173, 1782),
   (-401717774416468318983205779451392740449004133686295167991833776698320041941483417196815710661328640794729682580114920607826527633470150703776745247165250453472598257542423972605587958065739824307159693094471996168690288415929728983331237871130686703371443932044899109015564525501234013018773480998584264664456188711981129799935525111669707040825388149198459554918084367224118820771943112201027180960136835622962871152657, 1785),
   (170095832726702373564451462860761396695820070529559184580560264291597959470445528945459879272777754325892959604518473134768539280480663401531660751054156528158125603452380962120527079283814607705932109757636046975909163552099080148338299120846351930102863992439580339668962130420380602973912529871608499678523617000352132371194612319271703224852914731666588069769538662613948950263910003498085640166862999183906710283971, 1787),
   (-656304732947031134817266440197144298293274715492327354974120885715674119436227408798118773165806807712695524649571683641100452300164646065147135106896885112891148285629528893023002294155756185855538023320240884069959516897937007667871467527241946519733737825611012131434150221243639663265107713126396229719776332344000765313693630705126246259771805773958261144257274278457738038721462686197739489928376467520280154964670, 1797),
   (319540723121626350015017566065064258493201668199270763965985366845707117087477008627332906661583226177160461112013806280771032717760108323739097380662881431764261596535721141784378890427030494181623483139603469318762384380986474026486641771990128925908476863188437269558061312265946043208181915358659484073190197392417513673489640225355807818358144504240417320971664069934107529279858405649728302243928873816858578004976, 1795),
   (-817283084907145111572399996796188186929948021171540635261702738551708111477702215521228614331934177097923932805704741877505315802099968644526923516831279629598808324483500152366458832081685317627237457631184752228020937570564254815882158305151302610199775789475165896446641596716277144097068737158145914138007078189232654452799125693796738978666141474572034951880049651276395258871736325031347278370751179112761098769648, 1824),
   (425848031901673180195632701886266838551161561985311619028449997733412564681305776150312485313801558857428471016364305775909042804604270613922101679579658044245922981046164409835840055756592584525958561519570597171098079318926235031217021226208098027401410169623700817928171490485082676175865101391207561448685264305953830942721738766731580992447841219358980918953847268782740180289131884998383764021460899651075858122741, 1804),
   (-391923339825705456234016895436590734060983533553242151921340059143816591140071077437801602126306024894058881359715407366813293620991076758692340506395791372242254789877495889383433800373845746894005269786026245539831873290309975873115633019747720824790021757104812381095118961732585640082601604995687259347228755828129109160046030788917165086663599826876063877454348609303063888879469899601735278718157918367732389957397, 1813),
   (764915182174506073147722939576246371747412359801904637332288554640350466405909521840820896705781231666248380109796976174184040149230054537080461687497016834492734253515979967073111697074821509199096401722777039256367223641507461287960146666729476073827143268372020677547554349113408531417662807078132039085594662733284687726542561412236386697404245633280479266431202139304769699073483246087195581390116167334618357700061, 1815),
   (-106205280916429215319453664048117097253394016222202204364158552863405774089821818061788100197078136640141717850058651574224647307511908027784919949690819551613231387033917920464649082805544791817678814534753956564694241981415580634141223565369917676141774284955978846186861070956564764954556563675187290551203156413807086600057017924460716114746019293701423027411832024073513695286350836781357626911553917000434882785988, 1819),
   (199135442428775011962793597193610644370969548422182330347290255070901775032134091240676066257071069535537467343353799759412057336337359222702766934175891437511668163036714071885383368236935129863055674472854778337472243551800454762095281602162777735235173292395182239346007804035318324057843814177921915510460486647475028427032320529683017726435572896550754666785232953532281517257355900141968487415336974176597121147068, 1825),
   (-980338270495859708408857038698258890617803979224761033763757767807894199496049260159532108337944858516704902301453594897956880678384131192497938930204384505087115850735328590957828211082937567867221485999888619921094042300233281136369023541097311450020322925162529869284825372802258486204019887598833399411189900112846698418182018696787627211226079850255237009146170822132269391673497938031457081263499368635973745383543, 1835),
   (109152784545629452955470393339004988597036446914934076029036775544951831957485017447126955295862817017264579529231454049462750752955613260051795063922613970816366706343948383463949118798664757691722205092424016249190696058224587696863731225443757818668446077006998714135505294279463699360296852583053448000291824125849559408324721622589397979309660240464743111009340374348146714864253647935159497814899305443542248148464, 1832),
   (-422565891929646547571453219964417137350063964914424158211922494018084177483401507228935281619051100243786606344098926710501299713988710328536956049315400834384097465869936344011508402217118844406954356155105266215182378629459681159286914517765032512322740853843200564502293635681927551872510182137789129099645529175405096609284465198497028169290097845215624793159294088607445276378577438461492953776642593414888575145784, 1841),
   (272383986954802996004035440946479508706931533444855794312045364306495612659383125362493848456169093759088286229263786566581482111895928024866032933537732544941026676114282475195534463070608573498012009385530515048628494258259535285954289391710976315584031089885781076391833794944146020427120776345946154897429695579949009550033049450583048455665794338563206529624874106979050211515250524689639059077296991718597338051454, 1845),
   (-317782190473285121260441376674592441310812664379641642056223220974513728195631944725254440306372951129728233154181242850753259160126844407005095489766190586337524955235557107815702505080555119914417507696761739458832608074101509611793798910487409547728868718403648165445560379126245028789216720432231799597868168636579339454903388834703704436216435927043058653238020104872617092831034617623913364544002649587958111720322, 1847),
   (267067139609153177023035712662627489268716262709018704028029888245111595903848706231340122327622554879191837448408345333841297724674562602809386923247059882134336986328699912247572377710185202402638643432532701451566527956220120992850061629195798754171098837370508401087894967495935253639747764709097580729675239679318600142281531965438551859838469728319668400205648095342560830108599161303370024240267633273971475822244, 1853),
   (-209996312053359363579836124170610879957328253239534251834589725425346519662419908308996558415780687295832475356982279421936138629696353643793262471778009546200763049087219600612474998204121939915854958598809255729712915817923062573497190181613237615966820111047746003541533972033708121663359023261221460287749175576873563837135679523105261847185436852864180720701165650864992434960102775604569699782535732894472187238877, 1874),
   (314998842729913002548153612284801224574871584812260080395839422528608048994045261362164558490509166767668563289840723207833418032872169043032108678344687735979752219760634398471233937625112241440450131462486290220758272884158844029902046131021846869651765531906275504039467497319043219110024846056074336034613191525806626344766273098246004370468599703595857201916409825546978473300674942763719430736218475185297040855880, 1859),
   (-738778143123008607312421222673896275774218666131623200143865150420659708780749156819040725858396952375213586426040616133964019739789630069149893771137190726421232347201437686889347804746820421697109047256516737263187118300806175884202764947980718953464493607107012244471059939319934832501948684729475922662186771211950917405953780613049717818549065677575790135757296924585140369613997564664538340378624966354003399044040, 1867),
   (112273683932734289321900287804432386189010535315016224871367802163027280673701274769148471970389493411402703971151979356808573181305455053377794980326063747231956577553922542542079085897401201516176774122123204691107468650070553466179369396859306303577138906996016993009802177166452205929561208231813548880178395116893934842010507660309214184483309909392319305479261460933012306923057173139948608373994599873878811319002, 1877),
   (-622152436842490382030004598127392116348130109482401886245526542825607168774469905010018003815067489170670176111209225964657786979849118709531523678567692211943570548230719813712304363345943775073651554478260405765347186658242582501375263777642023790696247805774740246080279727444333801205487824755691076471712911374653149694258829796737232580158108471613124540942278710109970962938713106220700465518314999211990079299973, 1884),
   (681580147681024574093630173855770685778070685264189475306296031958810625700882779600508149103256728347010269215932626392861959536175473285358273684574498408066242142271341603423536092199880443675574788406235438694969921734051441982570546076455511518456682955442668277523772799709083153044185556376814707277566639614721366253634807560976610341187264347641175507759429939678269324992122598411612350279780069876483329990155, 1877),
   (-918151544731174428776897475653952221351104801050030721360834925574122600193435687770022861003925092873056920988748565427434015266086622733371795496604334746146259730306034930914377313893625656933685373989822622597621464327346357730167579928919798106813415832191275193450986252115902072175343520512712535773835174479529899885092889425929417676741194242291044192173394331445655742707506946542980619061719588976399748720791, 1890),
   (102228792610113656256486249358438086744547468320616611866123025354362599966185021261591345337751766719000140360249917024714176828561966330835092127036711936817498706220710803136735570866821724642115744423031816700991267033407408269503645120698689435695639430047596504186733895888564958853165962942340391034754748964582266966238218154586936305959672490913297512094444937302259676610590586446139120054820862489463577270337, 1887),
   (-279005922099755944786474956628489705284010736570480402033341009718164618319799944378531917031585175131300581100878051080891395015354284947588692160667557963009784149142715189088054388761667083708749324412762787371165157107023862320152644752189562762618995059391043421553695383307397083101624209421452523968817192658748371079544860916128778278467637492048027179903603660837361767500267885898435034776430383344299491769052, 1897),
   (134959800040440837758484069982613096470403597111534702401323331850084072871578087264917539449798809218168027769009062344175154591076822646311548917874468368883276961370235601709924168410170868045403897749169424544499500285180692237418566299375258438843273657010490731352169364450287183409078506424204017301047972565456417059950456357302276164506354310915138531203596153739270322600393840122973026781848466155607766839671, 1902),
   (-304187878220527063988383872744439168193685783211685207028882394037848422721798961227186940296467688111336236741632559727358144729591052870587263479273962982548299255259643780271875349599960611535299524884201250164620133770556086079312940407757702893106213654988508900946088728952657815219151358094481834285062098431545299076526636669225951897229899268857254375790183290670988928450476873408618851080222327093099349515125, 1901),
   (427910149232111847046161743699401956583799122504868238982920520609180503762439701882474725199837422416708352102140234447680608342372255043285715850062863738467177321395755164618344636857955563899176599677583113054610294762833253985472558023727341334116156310697989706672934202070403701514457301139651470904965800290068008477395612334852203541631924887964042947239919673068752891721394885375549130751384018801032221731928, 1907),
   (-181703084575018424619745490642367121216789779121559665418094160265950467572012928324225665257457842596095342213074302135259258817022917582761895189648850675424242202692208998911616578827475014533777865230489107761412321913107795590425442762960029284818276231360868439756853121028974145015650350357941099336566210652196867801251277341468162606751954327950575038187267970063111130186847388656077782012140584741761735516383, 1927),
   (102896352419271927525422750000088110082121471436013857122494541615159957061797153528131894445170779376220592641489692098066407411841404329495765103280401478888406765002498346391024375430027055167371281616908570801519517324660739708121843536710578684560483754172275554218992767238464649703950381336799650996144032754576064283937851665184005076787567058695326416007266993139893805897121661673903774212227320271807051680128, 1918),
   (-739274079595642847906001495288835135627657674676036493480471987962701658357419432342213429370092875958248686973552467880148539621066505748203508023000197724865860609510762179435277183340399555518623117388673213998761418431026938903269243831783331596746918740260400129402791680480868208095033193402537291290551451279768920692623370760152312857074141419825400839242980285870066715289561828846182723358942840630593936172873, 1919),
   (265973915889750543542726227084919190963571080701738570536230747818156203492527612430429888250342465487520890007034078396554493789983906603149973854947345652573118851702273175183686263833735249568889743034566275282651379707119967268536368499321171997578987065616405618246148492587844784252212706633169780647864536986895980323834207050751758014155097783722210612060832383221241318053508123608744224600843720507655406385272, 1930),
   (-117481093037136530739518289180955126172751817532381352441471374664434355455531847867959461038462417739817276341591414656213326064743417996089545034761710247001434924576240316666987092344695134554763338292030760609028906274472983236969653128266479002579361320538731602926155154645001835886699659923085116665939803976365911148737740231276777009453191567706266373994288553656501291617405125098113939343354339154405897424255, 1929),
   (118489505325394754825911932128968516181418133179068339965712143981290819827588056809264655470988226927530956820215399994629024346330215619355908218671665453646282642180229617085264301211224363809951762468699086986540729439498082952135463785469379981899836991157231138970969898972325710346307215974609397137901661647357112760309993260145105175274273084709325845527657446117610193759797203910886188993367706556055719738351, 1936),
   (-287040143745471869629317639120016541512916802268089895046151161131268992241184304469391587530959907742678037527082247260766412462338560543121655146695838805094390505335913134401117800770962673992137722286409082068791923931393351401024034098399615259896340789615877314028728543808092014104137648853913188175757123157271270364248573376915193495059799180582331975507338465108071413026728395533075199576860970449656416048663, 1964),
   (152442267318364649728850621509700052600845259218947526697405220688166704828477794799362245666044515742321307735345594041161315208016177162768283928243392445273867630108416901322259338228983528557821585408840104578466557249919109708960409427007525910856600753277980182230361787979180028521792777954297116636115376677987739004967669584374999148729028623000350412039875784869971409935640876315048860446266738848377026541084, 1942),
   (-166101775693048947186602720113254964586757215295808516194246214788591537177667431677489187786349747374281193508854506575695346338678574405802845397959143805964929972765607175170172022255999455309788647524739458963545746945730393052382130460482640235481262932274743534846543363437128515315110257382145485885122110781199040478017121945399548471757267884694227105489966187419366370497547202435206776443029448926524383705947, 1951),
   (175048591974912478904171077280187229304302225192602532895665298636540582477496739609994528774147735190770797641050501354466029819984888535116515905787823307138579207817968679599341082490008017695269831345234789906348964366087914859368493452559788406752169916603277895274439787868061076928079456492761565291571354338682448717993602647439182494237902741427038541693838198170264394966211569334039694651209702685685816175807, 1952),
   (-508822980819574283182561177837327059112993066969913261728043599635724686499813786471948541262642738802682665262465234260982212419433625136512342802719861754766714362006632825923770278909441142959856558788849272264385071871434896981425219923083611910346911291822732944722876240280454755676606146035422052306575994145548997553322337846249896258677787408082320099325956683018078931416063530975853015262785788994017801331867, 1956),
   (456977697371797918038457863917858568741249385431547355776050300854580731887613587929238849975314999903494071778321299795782371404746705081585143578616794527133454027392582756632965377873606747383067016606891562716680297290918537275382124038215552216792338067146037485841288381358697734548673063349207869401805866766573728860702918213093649964346454079535253565328397680901136990706843775588365475587136496601738528708193, 1961),
   (-828267116134043542759149149619348834438608023050691744923904990465683990992766243914318939945245052493897421854066615764757368534091269882726534987455213150875574940860096747319046979983783724668726201673031040714965252247197046398809232679909323002145515628299589881917541030760481721387162869280701407129228951682394563339538932613510508314108428811011617618499908182876364546579361014345835803342657399711179724786710, 1969),
   (698897263365453915735570972556491784579427113695284268334387908171099283263483276064864453324546607468016576411776574020446976051331942442198132624222312612366685042462513865113771292200085208570028050366550024991163649067878621917644719312050734986610583432366539796658709574488935104668233294671237915977708887651621600526268500655046439728029597242292321127778012039729985272298273928376296126862915688204325977244680, 1969),
   (-249548642446769647051485102260316860130694843233339376172395695230388731750964381874867192267544886962748831747121622597751004794126742563583268716710692728683964915968217436029258159933085786147069227984289894090051822522645148670676351356717824474499585675882478095513380031872621659904024632889513695407659231437210335523218180203397313508921791255962862803107497378845117333529376033748631659746789631992135512672940, 1981),
   (202534336789378561665217732725671613839897356471866144958790971161821329916707717828382340824452831294399033193210324427452467436790350049760857909748958537238904954551083652304577725190037460468503930287269626491479795123217813328627371769122700067798628931122991668036014543208264107925926542326733111415178834313432903077208620797827790500016877237718997303807577052858718065135678701281823615580576503356318577562253, 1984),
   (-311805573997456786955573815917600943331139321018440789871711306988628811932354416805808037268695659788109219478253782639924117206595950521422277593075093567112936261180447284495777928869563041399796763737684467489162926897351827104060754763901597601044200176879345801670766891250851369779352163860411148706262225129492154889721587072536489074468721464588374157048812262308810342946816120173180217732182423550089372288974, 1993),
   (263512565210639491010873664283676412126572297187480663125850933808009016695718294993008844942647567455487444556475419271144995880736873913391359925579003346498471244983366705006136728762351634120862857660031067537683754468814120189850925924866038999458563817604334295252979065468555046874960184840049757500604719094176961218905626398228098552696174355862346378477839668719226372574769147985169098258213629209483888165930, 1991),
   (-250743096815325210668303383060458989735247832388796740251738152185090506338414193975267323099135994306714627558546430649472638621740822049461659527941066055213798445023427737157997774808778429121540296892597027440208859793238750937430763527384624012467672709558023246960519745445694308585447723242676458585983858244228765612631942969033446318000342470999354827385114335412607297095902029601789878595264950324939024813733, 1998),
   (358749228098067556933951298829602692666188402319126768483145856646471701995230727102735377043398937297051577759424551005318281413863624401175981632623958170278328440391436947435926926246806703719171426455627688162653987649777569177229015870782028491195705996468382348403343457443024776826685826217671721346584433156723633699785446179106214967694265376118119486069077325362248165918048209832245633363616233271722868523374, 1997),
   (-132325768845874494998662767832755212338201748052086853483683450238818118105671666691599511772200871707591499401255844343024647431843851746233223222531518482623223294164298689047533164605800839261821033414411559093007699021494518597036421182184692648853265747882052402362594039301264485885685900478367318324154869149489570423714709818405326498489336342413255715717250739220456829999326387029141808401620075104326693897253, 2009),
   (842683462144894740729710636065394094297708619819314088463752663989975182668525832596753250287618026490767608521622349828765309356557469842228734608169118093390404541886026674027472008191190193635120624080023784196242146601656793697062230862109922987662340461760013162002998622970301922449901666596198421126757516768739613254456857552088629304909913171752573951784266972347033446025036682475065379281663128482838855849900, 2015),
   (-867185172799944120312553617022809062206725622174808685353225891428317891687928128986661041339185962941251165944607116608181474506835325817342075218333821367788869920434227870736501155868313846744601758810314696526292783643340895005550723538373523104493342682374086655837499765637722280479309152901283110159287050380059658834971001656515731123700419218352526623161869122060564597316912558834915691697882867159894818110446, 2014),
   (113608446991711988644783875114780508364863873824531033568257883327389232122430334622236673262019702533496113190728938808481807882230709029625286315230747916909103296445986918062919130865435944497056504972695411771059625317243636601883381067320853743616009952077619578782135219794862667993226509932734067955930142356570677541731348341062372786133007115151254869767899544693324582169028053500434969017483691552832627130197, 2016),
   (-191296108056980574156708800031769633999443983300278713037582861885358783287420003271406136199106999480605145379320084749384499648808701905828285662458652242313158422899335893947955739128960885562113559238524662620114447861411364972010143287747770520618030706758117810166661179837924088483867059161176028746947819107356861425171694978145655825577772325557896019951014336761458629958649857753857521746392131076426213993373, 2039),
   (473705496795548018563337376484585988828739884525202108292853215615317143852532779682628306204556872934938120879615833301832420592355447491875364549071569047370253064250689028379624572534703856279431377766321040690053157202267485498820161058978895339548705960669669203314915169944754691974886889302639006343549795030559402128737154226423873026224698708000941151681416352556369927839470332147064013008305940790428056668628, 2026),
   (-442060672438179258172512172357276971099276289183029377021729770766504042051058968443346749974875811530983684643310980153702830405734848577161695489381389934813397398328322171621923458135363531911861030436699069554358277045941797348541906882408645761665384632682762290558001578391996082763083785697400606214062657781003300129947624860317962910903156689180412753456252832924359354168326972527606517762367583212049115567190, 2040),
   (148256181521688361335460724191913781166772985271489168088831210210072916031865358215068318581883594598391993737815644220839026931850231779505799958325065626557499055117029264311131515362431865424817634333973844206182768074685759427862140004616071929356036881304866151467915423471941391038652155891653388247308198342031368608665901121918921163592764591672243888003705799715657117221586777394801240866677316082371842091430, 2040),
   (-531186898694052019025236363395106717885128300007937813193212922290938053700779820297396359522036458764414766779756129654080047006439355551466956875478208445377919858432820073005196453871938454416257889256909225684880361869734937468557827200083031621584294044852184768651896409971196347745520643147963684123239589828742434277107125869163585544546871757998888204454071841916939750552594145110614263799448075225250621072972, 2042),
   (917981034634000487668577519507984537547508958475048433102307615990631804331685155289186335318095037820719137600440164644503880017790148990293319323326983066525195384143013336477081771950245218250318266962597698856154667268669547706041862601168056042796223535430478969978225532763144718441825717141047116716719040503336641156919774229087389344517536121333256359315786348398623330360160142775100558044428847112582594514980, 2046),
   (-138386304746869622431172034095385873383788695728114888527387208278398786832708733596950925183382723738361719774633241071682673968781739235247140881205927242901481550511693271226343599625060179408733192667881078555184233116766173195504984396357059174561907250130499530357348345035079018193962798074038385119969708302594047817887502228171816202449549725212605660870080144007332897863920339061191730844945040292748038834541, 2051),
   (382191791456964664882889791413227783857012934159228245952451875607874890760692769919583352474956307112931217256837659915725060267052917879234286636519466103320778375375032377389043230525652630112495381044357463918112785204552262414631493323837544086980625303198599328735028342480145902371398671687439644542701757851187754925894626196603386820968488407071985101204028633806313785522797076041539140104067688341973872565529, 2056),
   (-406075445737266717740307220352721204322687105291773457205940027839233584390341225237043156797397843130850499832624642004147594243685662074218747069988949575799524861574830359271108632722577552938915747417705110231619869411517497522044666161074675692950524973959188173071610526532970363812993256758956010159862764026373018779916903189856650168675633349369534725902840757020573799377020915423624128152430262359128117243782, 2061),
   (146867677575646721824019825017487279409672874316880685272133306007652765283936654521837707580906969791392898271133662239667309062069345888684551642775021122565096749682691994336658849385326233476294002711796140624209304543095167568421886218054220973896049370040041431312911013984216567079103586879423678593535808861176699416584830708293999805867921725551256226092268212036029667800969880174491144042119813799561744479440, 2067),
   (-105362335409393869109586086839680573676712777586600134791069613904806359054951007907126459294788770452640259872927018634346343948075627208129727488989845407200573156137244539222212258135151399597616605733532720254579338774855478488102023325171517296282948749124596218328623247156030647054885395506852483106126471675221207602583264884481899995270640604903461690228075029464615797252236172124572589770668237213305041093648, 2072),
   (639467115172074711984534745538017436911951622887547593631034710482210746569244668933126944309914523665001270692030486635652214413482541242206122289586577315793814510943725222540852427254483842223795410098884216818156791898827782056264071032980601667120287773343903065398312183240355960081738931671688090837899205687810027070365665272449443419958023764639827035701920979604469967874394873682773364731906157964453155762083, 2074),
   (-328879492607450192613856044396029477362759781557023276453104610450980276713100025223685871956330414270131972987778689083190179114450499611465060800300728337047046793493692319340258041469779794011738098063087828523211350871129075731181957558829178030821061823692313120520639583637372012682920221205425694977191376405007245364729174376165596836121606881726940506144765221807299447565774642112211246303132976449644577172451, 2098),
   (945816630792664365109173399095797068704995329210758532312862420055166340293414915345219469393319385331722781066163337899772640084424174052597641605558092812772937078299192891272212742546269154966464647704147642948102492885025493643799535895925040711219189494917750699787076053356990194963912560582475552436562058838915352900727718151381972256369749684111272964989886763064798961191427548444537851382056656508551105477528, 2080),
   (-209828773985405267831179899718252855600929682563590575591641418742597133538684683583313690491093490021610964148009161411587542838538493505360939712523780994314406218764600988373417881002538784059358943213635961419374416643936306954316527871355275934369651956600453402379027239051428353620196895301604266107004163901886349812195276911563584914771435681927284035808212443152725365928469681126907505657751185325410843857750, 2086),
   (625362319069795759857356591414351023334791864680536675101244693717206224892159976167041035773316229883552441008693210422673360497776554277717255002250456038760251048206616139199927641122191730245908542408418295552137238271468804331780070169340822910202933954432349175723859074967617712456977522506631125468726724345971771892155833353606234171121637956526973321291457844696808247238104801381825835351523197110302348791574, 2100),
   (-118342124737326332144969799956842890225088238216248382313150119649608587144768880705437981773841293263660817854568489932064830839005431168104085652893488276609778492307368359623289095112941343174695906482266798526885932146256524686590986136597578770624769416319138312555822175410910200618164889545943408177547652846780273981881038896828449946717874363687244326177557690894772009523745618368533024737897166118699294299605, 2099),
   (556807724930696929351345499845025889178159567569180213665278763169575249123501798993501737385784459115954057222436111472152158190577077289988390735602089139175688599862466697597251712898606013837060313845676879293356359449954121040596485471977402709008377661656408853222330257084065682023834104297006175330966727693312317318895275917987526012759253697617904924986786797187972998068612689311350511575564276497636283582575, 2104),
   (-178156325806789829213321490317628565203861947676598175314436847074291137101488918101676157682289675853986040181149205558882477913010001673570228534939806487356550624599508296520454055827450558032450191296030169304625799669499170173744355231148126526888678040822226877571320690836333842449467574113878617267924143468618506965592058064638176075107820176554834032525305695675088090975777820327546807880088702112369171340858, 2114),
   (209372436099903348302205162669386636357092312163148327637780413739193618732038019879505606729386799159559267388676261619432320159620804170382023552729997804095015853313649334091437564981928249414724174038533059749601730027378983194865496904614163302036012687084155581867103325210425113917408793035062781417080782308559775074268310157827747416909160109603516645299215954996395353355415207769728765421034361208312412508581, 2112),
   (-170556245841123957553856554976116817516844710202167742017407814179789530746420479590758385344412971130500217188194498362537924215012626165324712730660021448976871285987368086436715945166349863965381086981894131385243008741955392303658463767125693898156114244942332528100349271078032317484851663211212348681628339495124234218126922317329935241566552903229142898395168269785170680464786147129512538513062949034207416022644, 2114),
   (108199050025900568288838259764298291159504044429911979598235580749871438519792488624668987722619900696550859795957830554760751008308422633187971541730329911829988923872825399659028059805280094179615376284184339038879538951061402273346020658156068474004448497492418623929410971882635628077022248582329814738896521570756033259510398190256559111716563510357707939018986197303810991502641796042198199072167452276203408474323, 2119),
   (-103936004066096807690638914430763677333090210988010899224933777825537211117119042879344837913263349519647418923020314162784978111038020713381472919599427992857339243818667873742033388025035053096897978993324235004903968822428811056219275930602176467521138351140846083895291452489568256416346599006553558096832973385005201572290635896991611296589205005999420045588103695650512508540741192606086164715676996177044061405834, 2127),
   (736546956622034161428826011194839105363157870946496928222023425804378238960629143177902278616950573152780109479612556079759703640936792158403908791142290990429327921035319239022564520555201948893236268825093987537246335527028521216695992066823578107634725403117805531259635132541225818661033283555560897218152223619564481841662540901238734020567030692089684891755823316748921834543087680392945341740633344133939562294429, 2128),
   (-304238178596701013892521534543475174277598678287513867272588450689582414867664442714665766487061209955938280744050211731583141859614803622623931261726862055727786116843195390464575711710803023432907239568704779186955035056647888262565171502537669377616539523771608394752258572279549544869127160040947145758832365113405444435004252782217844561502678678672581260097072408230954182937151207805820759666894086735447074058284, 2153),
   (671422290915717056359759897023901119104708058368006900230293068119115586171384133100681586832053910315473821897602064699544521129724564366613016230432171583439580254333262911752579078237765472743740669225338383003584920484832333657694461459766829741219803691571312018208986866968669129454539964331261548800063590628766281638694771543426054088320450833671582187300965306559944716558323657243578319033090276601498370321348, 2136),
   (-154405764876629216614637287229808230593057258321641325572781871311918514070580968562632309810897541533706623649621973652292847471991548432857611549473820532218676631806938590530473183651445823836954529210826998469627395649351373349466927307134533983630092653229384821674122471721406863149922738952339931604557146989692646492242628918794092174867166507736182458970944868638028681560968285666981070380534680714210631562163, 2142),
   (264381916415875682177826466579964040521856794443851986238399643309717809746918957695519662207094342824926243061815781084796557390374852401187381427091486381963037264298027975120602633393311483990156200176255066406549838723679925480394263707855462369775492702161574559435280663259590377118446528313127043121525907502647397770545049308187522909373039188056295883840402826355876925954765815951961754591312869887138487530026, 2155),
   (-118245966315244124841537397005482188127189318685614012729502553869265441458845757006598667225826712958128888019753691029840379007989536768037489959259793889288157302668188650027167605009702924419856793974355293683943389473469224701467015545189976181002176395846772384748198056773448871897687579076805561104441951416168821417902679072328296237490332243223456318316188615427767847075709958087696207441358907796994519985770, 2156),
   (305850022181017007700322608422213372572167378277302516096702544717631369310888052100806398936999836190952794797902979755363115992029659724905518658671538346696725543715939400478115211175887834464613685848053039726508397900891954950044113553384591086403913473153854158685902153352225197302418080937308224493189160865815063033216550098107927846232567262418111201026832354985555023784465833366711758506444290913503654765630, 2155),
   (-147022911282478327551399302396931666578083803094351695909593272608330301019901091975970530204579776188994671288854682173578413878737126895007280510751199274523188423256765292514414874693598095963639120925386047491165848802021229639479486485613745865413153726768567835483269908240186259855626546796201687349434888108201641038814165390745439652268447718526756545118337242704527662754229853959606937884913672740273462370494, 2165),
   (664458169208781927749167428826223678251968132497874676568553869541008412755830268268673477767444300843581177071054099165665525971234320563644825005219929351516969814445579583129139034206808295253862694755461582199713142450618844358877882807024840311114720706794253512346657469198054455098811758999141390908328218526652524227165476483404968734447146186690847865618045702135007873633087975142547825399720390172840939236608, 2164),
   (-222351689435661855949624441317814941032567152926337496028477396379119471147319962562709922843174120545469735453022557428315943619929489355751529315065101023597068182835959816969963535422895689172722808217534891696540637643040160654717605101701483796726091564380546507419149064755182444621132584777295625055160118394784336124389876113789491946211974990867849128077325738352456495996306682386681502110788767636808804200811, 2179),
   (102244465684238236568029541230969171031142909941313393206765889705848497397680439789747177181054828963981081806409736178292238321640858304001042897294166394082142478331186009669760483592510305515367566028577751370757184618165408615343822968881712113453341923842899947902208114092084758090419175850631919476400923069783913938605323711498615435154116571643779280108794533129044795212318540572857017487665531469176173799593, 2175),
   (-540269938262377127001184848805844452807706863558816976297502961097463218141993422251336562330876918760448336057070123349228906700254752765709713842282727579966352494882168766291921468688233379857193827233741545974580821296817168622999566306105516746676241566703351600224757946060540680410312744082317641318575202959949759914168357447273457069640039850451253350816433490274220686279140440700943359349364286277965300803142, 2183),
   (444103696157089366008451173024542863754162407982307186068322954247479903936063086790175698132655562657478077830961025138607289126098713443110464901221223135828062199424650767654631909335450890797169728274011464914137092174651393563258304255838492377495612314320273631557492027924722374337033794462417173107687555843297341218861549417683391808489936575426667321799280101415479269149412421080730568771582940129652837050106, 2186),
   (-376055558661856894752025232146126892721930580021701674845220538173817302621156621084364217698033597052833071472033545082069788890268979761113139869710057263550893642344783638610015938517786243169398511469189210348045730058615144578382752054582358787939860468424826212465987175456983275041752745437369745116212201071192525481454604471475112086174666868798877101360541210377163152971705059768921030989914097902160732936286, 2200),
   (804206746542242477323919113746410486877672997765586846719136206818183743391081387782752010341274480944544845431613327691271661356607655537073353689948460756116067353653500411616110487661426914205025168181592307423839632073434982589882344762163173176703967069579212961115990206002200823059275975649272685967195469118995137168118736817831936681614635001392415377190488457140272840851585445027108877728107427015399711892290, 2193),
   (-136619163544997959888262098065875932443328985773547821009936239472872161397134576255975702042906924993522486853214969347553478137891438207732598743483437429120230955753071734466488864944741460986455378330336494556731370555994561432170733563145616464623374134363888742479635458103220570695928950082035217991648756125961724899920327210067459745741576551750870980236376655398258952360210822109063653086276430471723470930278, 2205),
   (116520524172121416089308430807417375401940197335004176268274042716364160775457911877382214549867370426811427724168258511174924966320704115589777547103071299199170239229739190723724009791767694363274740209049031200734764402661080348908969541106135120559660278132142748271978471871649976451219014995158105957178539655320908359289984133560555639295101524343802112171530617426887406585010980800096541450594160610946151743971, 2203),
   (-117308859855385967080221020725700374033321708512634646169113696316097286421797554792303435681902591825817450062396560193622429282256446276962979040188874228026267548629618742914919683210186526740503376927189541163113137177169517104592779758061860155625475141778521499166880015688106158897051918871711328257590053883282953264871917630555487437797569157116539350828041860744350966277673638640292690335256595923059352263136, 2211),
   (410273044141528846407265432533048332758837778977651078021399789665170171115328338337660951942250380372398296164523955060054631897032056100420307458173021533058693786295630522675666200676235200063950364368117709739126915726193775591346489508066847866215828047186167404317950621445669242951228879725965319682434297532807239564001119347952835282093138952430958994362937356815103891993860843770508036152132540336865899317323, 2213),
   (-139262283224463992935186421970902747903789147254607420288930526619400674885491417456424170032639573324698508928231229364861311996461294245452921358999189926240829136484497709486219989581707761269073688006924900767770582502694425830004222858275649748186860621609384520551256449351989797116062811316904280670798710269515140341376973657760671279507948473360714643661358826378899607685321622842177821588623881456159053286668, 2238),
   (893541662543985769391016604975788488719674250400264119962404500160319458896533266609583061092726440386197256246916541909222448710771734823845851108395234082923451004652680217508974292626742339179603243239125404108268445225149873138180653614264928729806611094760231366696484560032773195674761679164838101670332569858292806452095569877493605948314508246801776499715618523280749414783512515833357765475448371178971939025345, 2220),
   (-751645080743155996970219192248512899847134287429185425431988608672486760669511212740676661122652412986354936353815548056183507415007934455406923228521294862652012685143038763786063694287578714339077455464486617743365969348822887988301136449856468278730852629471548393208017297759043062259850328923324721077866405926623496528594179473042436498567649077344993375019838085208574093302991792695752901746949771923217758584315, 2228),
   (217233665818518695648277634066122856688878408661120186694245205084534464358083239608878793677175182485408613031425996599011331131750976834818438276667406228920328666409729025279580776837170022982641793072043636596269759707611019104415189809461973595466417115922380374926797506032883843866358427752500495947266734341608415129790837376989576212326160318557434922567434227272170314199855526620877434943443490947346978158322, 2244),
   (-513621035574121379949318445516580730157351889535454314911402938546958449975359016425660826878812752983946875662354116068652468495122217669224641298066175318108535038482979031622370738263306392126194544576809453272593791172127836108522512686657257374301259591143804387782197218445087215737573609853654786463996254386445432837320066498702470815002761382639658059428162695203161105997122153870260323377094279373424789633233, 2235),
   (552615156708937524212344661291103841594416903059048915331485307859659107215189730660638908392410371933886487843340270678737432658159419814528038437249103832787025513909972412281237635107644610251350729593586005251647536179963091671989718135195432098171488199382063076946464689272441318378975103758799775105945961883740489738637401829953174215041534912147720701118368613255406879000950029748422844126533249631175110625692, 2240),
   (-914387779665800111934032186307188995209721659344223996652855344270209802510614017027113080817554078054110906178844784351663640299253255956687180890104499398911456196479775699277671333445782848908373468448604458105555086716782721577520895421045259256802210248243920352282568233846658384873140530798597933730105791269925393038442297960500996317292857940114945644524133063033321148525441680977113378781447632401258881112976, 2254),
   (100593282838833987642987262670072669487832859742349364131096559051782069315646511873182213340180688959952644183321945418584115809199724357823257740978131342805846230036219769718101598274981796992816512151633038797147790696057291246629358147368256677476392861267742534336909583072637568076605295855605442235579941502843231226246841427911442168189435212887382095777080683834793396316079283525123405314791259619180453638107, 2251),
   (-298923998321767263358191614830648169489085942414239088624341762463056520864572915432515980304252364995917818820467906167810735842758380134622730705816475867732628966696642947442445235162935437643148265539036040390295165418629838818572982289945046353476448767936673577981284380522184003448800325953356423830889690369090463905805916571570191630315941792149427685352807816377498490910924272013676604704407653677532339815430, 2254),
   (135259336953235527531869389078668972367604286139110609912437446430672085050725198283905865036886730331039660289151312557153190103659018199228212649074120604682999804574718654965747576855335005860397753137875450072114354447098747791762762559437567240410690542624748005614074851579088718959166489000364031237804903886751652499610189408441779326958915176379229723601326805305858792415910047647802021373577334381493277566827, 2265),
   (-135540547950872462644726710523379080359362328909036958727632420578908761079234369989461634459593340141972140886329901457177402634011703578786286680578751801489235484245701869757738773287399101795108981457692577866419391409289379182368584245728985642639969035320659290964605224940590886779719035928700576366960106970275570388383396777353379845254088140802138336310027049833688997409518354544658547245552528928539115731820, 2277),
   (730040652759406379476210130303533936130216265527902431416776291999320836760353207264873935618506801663491664048911750539953922428751423066358621220397650373561920265857551234652895401883700272587575270346125720305289729584771057576171914743915676409863145835387871191097334654566507539938833890241817910307663303025800052092346073646606085250001508182375331576208392281173995488479624478875671630613631892383730251342609, 2267),
   (-834848977846469880359097247742178135007749334853780742789604838908260329052148249679189094219639324162133980948840902274651262219764532247493718559890539080090673447480061853960261416474036327563545327621999784074508756981276444336123625539322730451344298441387508831323815266623006923034754038336803272477196403222340745310210920915779020719519712633694229329794150657179299612268436779707762608607721515465882204404808, 2285),
   (182269496992979573793874226475167525821629079709999502392969539361752867145251729726449700763160182465924508863427267190399624048543511924744983669978098932688909581755827687416311303015608079938405529201729069552828650006653361731654923531291242397044109130731758222144643623907714659085682240549689160516130799769727332449237444412207975337438612830999415356505119035903774447539260264826000019911808587861524536118661, 2277),
   (-791541113412249112869099572640183196948148928712445470803710812154153418232099514760210739500904603055496227059203601066916931961092795028904103880713578037020373197324043539455663106053122857474286793587127559623328753529106793286732534849997343829194524948821217655842782859764159256465140232297870325059569081049182351845157338843467532222075022115513811867897846356946743345671658981764276947906179112809951958923333, 2292),
   (310928286976463219347572553523379185630277643293964552356146678594888621442030125461546999622093551393035424685480878395817765085442213327535359694850886314135480447500759126280723285697596442038888684519310611284475562235137746460282108497826461034430769491131831811630857455204353100379132907152509442801342050176507085659161853136044805975289702770325823560172891867885952482622467897314383980908884796316440171361142, 2292),
   (-116143085031202031294361868641507456131959887127170147358349087608949256269269472417330928268320280145038142615511661660313429276876361150871861627122829136640887339765801161101619788472381418152053586612010525446271028058894974684326093181901569546469407740467148010004990632326793395583106838180131842237392946960655873134868864059920579810945124324036204046321592201465813640571235537860466044245536507231284761995683, 2292),
   (117558811825932129515275943944120935140094809612167125457499315615965881079688242038248402347114021361156056054286517009957256586499109783385265264596391187231928469799761488885563730442135296838185696633763857651300271581134019903215317583347197936539337771213747359135250063336544550090544428129390574096826794272090990681696575433926318078160419036070273006419338963042219252144339088751446578137643878978060467502099, 2296),
   (-192474312178677089988241985881400526570177645466162230268789159926835088788746841276374785926540952952575891399194714745692499344286239997465574364661994911645999217134495627842382796644164965220283183579517852329238020289766453025215939291796205953636121788971594103572048325955039334917520018333422437838807530441813043150911918426220618843982380583390277732341246063553107515971611003193555632154931667485965633835993, 2306),
   (303669719892147800809138933708571992426835408233613207327072577150996627521746803691508563670545466168029820546244570503161235925885483990042764904323915779074384620429537212948737134705826665868127285453990853831900427181190918784511771194305635899470271517039814404878621409250857309206546540452066630098617754460087642395460600358496492282477548821626189005737902714065254484527578084006107682545413380739286509372810, 2305),
   (-852462299974273792758556221094436011197992897235600272420173281558205354086834227568101148296410898188586582823962055719418401267453072336412211331259116017457662276918701965214275089390475258367858409550018828371886782942708923522905978120580146332416151668208133533314234594490963617152913289174217625485267537808472227304150749813795884381188841931766707416466147154981711796778627476332402711415465126726077065211445, 2311),
   (150142267567309564021366215434116157168438969328232404815098282699729394705263424105998821356137604263409085979565253281538739433713746284525219584872008718952582262318971643113486241607085988240932457402721999759313173278839586183088767361602633241992783037063677345126689937387775034431148806405528970637735432021959896000587823218059237760204399259098353298494105991086487215121698426601928639513044239335657251847876, 2320),
   (-619545973723648399623815652880421695209493185931638563282769976590188457609144463643226911558276864718345083551561041212139017189880803223373892860930136294801988045949151431848052182851892707781411853878687687134623927677580895121989412789782589713335482564733611719105538090923045994025844613621765319124518215024131140583518703443960834332347921587741646939113707970403690230000177855420819277293373677645982860577762, 2323),
   (140571754849812934793378249914827184284061511689022060470401130969002221912517727683464265472281735207823563503883106121126596592987524675566208185051896409221341577215109579889062248700007973073953317675642841129336237248308399432711886836372344072159462137325712123883211156418854568136997398746325764732179179819402627915770401700517052130264155289005201903564276728151225391945315958858301972657901421241242942326102, 2329),
   (-215930447010923550848508302109521145393866043241815524236717798082701700152093672259770126528580054698660218293093865328447487867887515510674576458439694940902292967941085426992537121390497029604603777193518963518223093181648879197582187040582279461708879135586761981052246574174085906472829505563992971700245991882782098582569973015398035736392340136026184044881706605183607955947025544027640063881777837351699054042872, 2342),
   (185596176762227500625836607328755381284703535832488518476516524788659566459794502424850530458417923218494535266185227129593476271772656396105324578506726213712358250886453738786129566116947863391184558926297430467993991312721850121895317602225664551970039511413850948413135446678727203227372852270909350215476842297463358168337264776518260434683092225701208584246895007712361958099615969371777597296187931941362148498487, 2338),
   (-747671397962914059873315022571027529552970963795690053210134916691895549587609427732750031872956859547170036465344278884824852735058820437929866009378286179018697557067212615862192520605989700775302726149296931349505528439015508509130731705847682307588352622056870329553510451650944918647499011121326923104432087771882413619166786850900352712294287026629843779511522915090066043333219467570852425853208096552485605051052, 2344),
   (507305162939327014226624665065625869516114760993263757330429142137707143305541659096870338685116180190392329552631858662469008649802469632066056152484704594658661037305932779533467695038703427623708242562534346482328088435868350241965146412377907507415716464423608043436904200485795138234492866882743118993796799303810102757692456120865426451509378215767878402549830976634094234914753191469081833636954845473071523062304, 2346),
   (-283910351760185218022593988011225872886596942333402732825124699438093489529949528198150623357944724622455655838128574656017447955898962381079266527285843396826300582962308490990045847837919889270380956672992032425051481613489598542568390066336574666474710557163018494211967376809752807986064382657175135419523499421626577106954978684078367273831754766564186718103450115271528884813781832265055888156761953153313893984718, 2351),
   (594838465308738657135699620034432918912024419638334213256011078391385256635089328085365109891419456137558660759065480280487653504213784311378280480829687283824935589239648394970433191121661735526548374480547582982221922581276103986223043103763473343427851198709647995427446721951633664344653281490344850072918520159308939876120950126734249308736563046650447980676675859043858849417347417025464740549062115355689229679831, 2355),
   (-310796218081915853548101245475868114965763470478554863242972045472247832779406811604064790148476793945045890797270405704022825744177060532407607407886588053186640269433387447485053941704055200161402110110194010921408335825989775836658324000293750598128334387149653472973957088389280543214756857280974031382024567331636195351426136522840576196687765002542796404621676654994857516247518084618950563051554105386466219438512, 2378),
   (114201367485487148226992597016217621726769698553170009025047676768622136519049677780187898418776735599893116276912685586243473395333141471983277924074065305586972621262609824192133678156050104575215011809921842684150393663496128947961482471328967277988043257422075350400262700285177788257520003892387682303375535096146095507382866445199292399293667927797864859080926703842926951805531100953550005833593093761762921546966, 2362),
   (-301380463375392197124554160193198820874876818527629936875808608403502781167459781881699693855636795360923414948776529230280841351689290695685641707718513547238430584149658183170324927297270140177823092320549287241176099731666419880982866028164616000235201081688125702850987782723414219461727895924507313713254593690516222198676099405757520624071191010351811446271718264990683705604567337045939970479113512031943635622317, 2367),
   (323138025103323263418832310549714382366904382240485783659147061928549287998661183913445411721159034923764004972069961268652470050750065597670937700005176576224696337146847177488525286666795652287282550678748154593860646583475383074086509671955057322661866955059132235058480293459412334568167796566026271458857385127299614595335735299648486220547037558710081694817032249103169542117038632811989000091051518831606298093871, 2375),
   (-846581660025746660604825431670570145649894979765247943811100075785336658176211884798990491058386672085105122274656871666292575074096753097451557558731481328730571358350710019111556665797799483847115510444758951682745361241416173400903092611569123553147506817480954946483831704729040916192950005713201973743551763480768376997002798316286305227215030850768698288828759321161884387195980796121035012045835251678676037494742, 2376),
   (848569878732195285463021371193725502312252131474856234562034627008611199758209211719724889656950971727699204142689117304065822167787177603776887884153606197317130865684358367531589750468947631293488864085690562698514456184653535895779296091821882786659658980668895314651163088209668363558844041795866845212716554424571928242267260948797409999193994135496976449285493499404441978080027358549145448419345939365345806696289, 2386),
   (-356175346233921437027863904051744092523598461063577895064773872079332543477149471621710706858190318108722456385887930610195501165256735022502190254402785365362785152785225593937146223690253666043215604045911975263656048474430119498594020839427907531575111589932230819158869057354855679995031501057727883804141034103005316351048829183431326519331864707206831318517443868363897661723185068831344818512482738087936939923082, 2397),
   (257347574107297194428282167751553536246671595207413731605212564575668420116270609205360155560111683565772553074992217860435726695780645059428781555290991726954071237800168198715566115958130280472627603277051944731403711846742226220402186501945786209496023753069851583549736375891546101067471115251636844988081798975850774852448302522057439629339184282397745552127602791525861328223181671047399728625133764298676536796861, 2390),
   (-203871231820483693297639595126742620775458282231227240771435748647086623349866889775533410887755728621988532154008097457627519621034583569432619067134351377709947328941462491586254506286704884224182208293721855169116442465495088989439778743577035426348854556251189373452152931891194277343834437321141090325397449411964119759394689100815143990999992125052591505464149382827023133587064315473004438034011960562793293136065, 2402),
   (114463111623813121368125856707498815051385099523668916028590050288374711467967723998067077706078003883977206383460256844479216421782352995635771865599302905565774187496814975596601762715247338149447502506256120363337378913936728022962290214588072247744929965946193659039866025931632632841290560884184423997867030788430882960178133567209332428908860062637889418753814949033256080665130532591261969076193769434075265177326, 2410),
   (-646131285764797578014398352452579341480557666788409519498226520170203737799873093089885073165923153568271737259341640038373818225891780499560451604802487936181018812908009400796953255554390191983394171150286002648605198021416250648840812190526263373293311699287270242051472926669967842400339033666088538854072475000613098959674622947570603349729598697206580951835567721865807545194033485303164435143390431302162535617367, 2408),
   (216934343636280775921814050174498731579286705217576059046002828494939149916273067323976190196255855515819293637057774161201832764414173640657282342454088320427665776626239127428085771826771037485845134777182213532807367120481720745033565275658615247164856385273373743480529283015536627361301841750437774623415864675220710342032561998849352698865522651414384563924903657892741979672148591267051743072815622247044648191620, 2409),
   (-144057347462293757843738286377131642482668562770959641783570227172860497188090979812392065022846469051103861784118685475328475194334707035462715092128672615061342329748056267707495454831661677250204708804337066253505597336026111824726393767802301091419372068636498613514858838516555290125121194297147324734949487592280142282319292551028957036662791374954745444225449537463534473972402866155504351961107582045274032445397, 2422),
   (640273955815754738661528657829702358427417980854653174218294898558786109339512158860371047264731219160368032289039267380067103481669228214295164907849424603488628960560475682200141757783397217448444731461090317690881103976528315447968071750646746751765082156235774246172965316720920900539468774928762096118840282518364799815767172991215820939387636519569199991239057078297842348305269619137609040275425924489985457320940, 2418),
   (-174635396105461057392041919811715121792551299168455673018512734517689887692090597712417449667035516367756583305085069375874659573839645133850174484489357996442362765323647330960483645147981359113833421821121418142612205765894010107271085676521662938006161550269491687543469035594444072301194566268596583939346996590403488659558444094521119334289486314473700347532110857616131351300296815120690396122796033964258929817178, 2424),
   (212176610115529197628405659165758015635200362244296701605282671994787396785783331754564714682091335835215877646017099468379266162193904426266300371537147122314020796546515683300530189511881049804993747309951486208206634428085834788499356442021544051746192729656802889906155587971500486415551714422216574246606961906856600383788374142501113744727361020654757561412770177361596000752764343093555964814676848227896163476835, 2443),
   (-418619247553269797634232670875012306518266205380039668789131364430849975870895668918730199284802342699028014508027821486872350032973893286138595554126024551705032862406258529666991847939291298436699771824228178827891878551439929011942863858306628725935363806179145021769377343072079650157203618168782313724298797278620950823836530019913686287146926220282649700168278175089176212838278745364515412202865099402219241279437, 2436),
   (132547255201136775407500983230826281853741823971652035224913862989188972403898473760811026095009122189273866026300724370037152176121129941161062457730230054183231669751009918965334210987784446676217233046980653405474621041926798436590349696507688110439196668257509545881601490553845603282468496305439432086491955936074601707866541258485639506031637359877842595940179446622349592807598179650234252538007798902779964427217, 2439),
   (-623520585517751030890653347824500232763957840872969932513465660208422494144235218282560747111740928547408442693199728771516274201986912130592278612193768049855961632085316882194626542347800335426439608050679945957252459105655031881474976654768549293131941067424639272193302796049689274109292466136672398561236989313374309132726982361763993632901943726175384340535360477615335036428808127998915557892772298994552094466239, 2452),
   (175734381200319131938652194570217226743440804320535924071397502303300257081667316703453114661589646863088658351075288756496647859619701932683235948159191269013865527260762119297983488873125377597775286053716357929455057368018941005252490534207609556800310552115963152001993107807507819264337374345953330238195823077021707399469404311853816124425952636269342990880301691674070441093821831642649529865536825032134486370159, 2447),
   (-484858219466914949338523168625589902079665675087510524751846713709855098141548778499032539933005002832945729503220611083210573467732339908071725963767119417847275523486768908227144064487152554651594974562403018170618630018295465746204079559358840760801718934443135748797261710709436734261447193634405686489237902507928955659801052290868258632607479027612698926933448309477370530531930061991206914137692456544910281737464, 2460),
   (444259472842373819045410869703427120468381894163126259725690874596748570326937859649056518110141611050919440129896770366778889146878737289678055631725977217993811112106962904247679828963301175106426666595630811514532528648214610669197046647035885455785173426916172620651075149974917430035141328180549840632908124579802482713407453205592173493934323909169939782528950736572188903299648483434441999816588484695395190328125, 2462),
   (-348117874780057688037432757456066522977326698372823599314147591100471544069921976601207147042358086945149480631473094010980626812224345100889671801715369645334057580441264121965624871901144536102199773388228180121445032429161903464630375391365987393105437107010384998839039178403270121091063494140364155709206895514320862784561495624500748323662347447697655601263865191668277757992071359910650057054913785293900794720686, 2468),
   (251004914498555504479178996674178845353453855604205643450612819916602535950112095291658904494736153308303040879709588836506432819367689798698765415163524866763285444588745334062570374949732133970074298894740048339135394732900517714929547586658788786796687447115046404767328343249588328372664309361412143337555312020379735830132153834834340800058616891439006587975193125061583522660809527610460596252914639080086379196211, 2469),
   (-406433284436296981392290898176730196136567142482567089376627582601135359591880146612605982380536528028839005927190218106709375077683443049506246644429883114697537269580725602029205308941635820693661147087529250770404273047285427638555599301361646414305633779047452861501431274432064721188686467051922709198491392166283623136353929451399443592386481292861268356108349909475698552803997936113973737617250939534728783002394, 2480),
   (584843050700431094039962859079281535757100030244755336638069684604672759123853244619893658233673097393488198542976430389209582326396160074656346934072705149707302692073420348768760267201883492840088613560768883078458189284750118942896920540605016397788306666074180437531078192468399568508037560585953340427711715663196509330610423277002766621674545200189444176222829914735537725523908533207680269610812531058101084518477, 2476),
   (-223647058549560479008627126230443186648858542137979203651850903772660048997554111392106174235579943128472875903059675754528050781523932159019321668631529647099442163826378862390835578811311355732177194999522809849828669137440103564049815502552024629405655353185167404489312629635467598873375374936306741085812751401881010470624454014805017192228077314987295679046901607735452354547451076293958855737761609494467576122030, 2484),
   (187608583660398544693443436456103759539594790909710626251911897459618303274057630700976460748478991978743877854781814714440599533146288963710727909970293068794960695998583112862340670159200226480238684449497274962273573494451694175473988259381663929456095614802381212243382935305356719924934698438355806476146395006666737455754301031783252811360120025748263364452291288459355414572107927418289955169654030721444879633515, 2492),
   (-134463840326793993223680237420682912070377105467362329282889486095737639231428945234766846072895113923683174699763365760626462067547284411227945312217045499843793303485929926322775744753810878916624883423339543169983295380436180189789784174154336144797235004067145150960975464704539610183066953714589193699757766211611768155510223830419149612141880604600355401779864247448935537546434703098908712512175832715763282958056, 2496),
   (816530866075803096813401796616941351603557628995981095097773097860060055596400004777168880369283253823453082892610109823847289290242766687193185223122353614994879119537953829844106850911658137089880530207393679503554881301476809303987151360825982531824800069867493159722402654378836586922815099844027514536522594205581854020620000589972492220546199544240296736084538368047537673062665613087707215465765408592732823444947, 2497),
   (-844134633251176782405635873584496997391644881692668058299608659519105070941039207786112349313911155991899743601779098700720989806138090413361539227949675125578701595128691388530825801723297164715783832555424642476692928279090303820634722341613010372540901882366975955018651791449014598703994666899369741130993143041013648700804905152704723954184623293464780487561055328972038190653795970429597330491542628173033953329095, 2515),
   (177171971106151730850965752825000558325159543795117740061990943820145202960669369689500117798089904223736973709683496122975082518437404102185795867890584363265202725617951379647480747467372732570385751458992269286447895078098249975711681009419882477088857422417955469083170965425007734120354579212169514257494258718585762675409848129611704102585493857458820942220302877354958409696030393257990126369120066063077299598622, 2504),
   (-862305235099312811871948011562084840754662234291409889913973918462852848803565282021367622174340744300465372095853335222609252500104287183260759915182880449891522853953965605264739457725104169183476489570456812885293481479932968036245120005348596451107897789280535598801021544632280855955746095388802887195207518711231895005100144962563633885965123982536237107193702188195031937767838997737438685992681356402436149810315, 2510),
   (205073648061818196035087443786559409877655083902918773015612160006795315310200193381161145272993515441569496216728859049206298665939461511446535893300700583565574435630776147608157050141981393173608173441414579470409887785238451811989590104451259782551769635239080419869743057510478039885518792995524463405669053437865283961927082518360023950289510795040909166896931546093953187471157874499546047398313660365873972921498, 2517),
   (-524199466737692980472934459863609641051332576346264265499467242543841908475323552091454256194638111702333417901449612913936381386566767322530874775882918807794521543388717389439592771692616328991737861768976689162277404078895119971812017664758440655062156615915573168164570634976284296897979146650110241738283593248329958497001708716550042776511352088390754822932140720725391878749524960459311399278269988243988957944960, 2522),
   (321634249735467284015253539556313169765106078734373340376444731329259138266097855415644594312229888073349804569744935729162010445880115840225899663972952651451543831057392286469254580460260887378823233177359963374038746940810489029601631402161877411361282557196839141287204981524540685569042264010157398099531147217123304367006847037626164748210150003314125701051509780238930532583446842025719524153210804472730168759327, 2527),
   (-129503946115939135563262018537261724758183158823889085531362810649588532272579074596958244243623960631076914070707249825779676297747977069629224571452944325903279240435982083767947535863145890294130677527986945984636300737695480207197244148379905094792079460720382919352266154342178658515473688560803237444308521460094140837385751915207971468279103638242115922280954856120843053088058683473409407602674190657172726379074, 2548),
   (649780576112770933594265612434183843226431600868118527200749295500719679436064877916896439345847306561602389041006686540022763189688342668143401555548598924926420767583372177054075441780313439304810728087644275547021962280193997699782451451513466214992805967060996072525008138650899532994969489671224348070429413027986047999635617245231258997319380181968844148405641778058929583764238324743349822187683047662276244491498, 2532),
   (-189011760215095885958481188318160542318716848460527807203042947743297332166720646918112090016914370418273997444459314735459110296390458388856877842877573747568950637421114614703156164275544794084602447580147989609399049505823511891964457917100965619629601333093803145841745133327493941410372988353153311503932132580147527123143330890933154908657230658468079608563009716353559658476779825503620587660257156969974240830306, 2538),
   (155392400176275772479549043535134665085986796700115999974022750361049087079498660333365366508136295674083714405125540651144902139952196555342185925501482572469366470431236150579789270724221834835693362957627287728340948890405656079164058214106460019920094838213309564235584923608661017005401643007177589031882868982372927435745407310556744404957456649964052542924390722680836413353015135047407179713224138963983370099994, 2550),
   (-718574091690377133007172193419654839416862328323278196133113911251682043061029664761496519408670239222332121643637992575498804893293656770511378383696549257492653075406785184449240147154859587557843708540002547670556652244807463193010194400559581871374004102171076246460055156331202300143866507006905670547228359958986736262197622183233666681850329661570254728410425808021093521519958087051978796591217712664864554708786, 2556),
   (115170723768637160315154867716572050863735359003940073428603386649681689030565352959428110867023567633432733127841798538485253502010942148748338104458180779456039977495089190150749254356816770881637189511277078350078568131655715029730417977747067822531356978931047219639105889012498352903368852611084152495422039677085835848638780258931384658993430989447750831786394561634419134076154009893984062239487955844720929503884, 2555),
   (-102966631526837898816831789009920722814703356605129201939359783040846687019693502219818172646907851155228267648443490442079499764627112979174542387674385836970108490636202663977589164684877136019291019920599836714418028643521089739862425277232002470226171957117350976556387666514553852484293252608392521757090886030640137522297535768208366123852540252932597807080883749539924937202633134132601106773969260619125409606472, 2562),
   (262078845508071761198593902051669353381044297990090683276202087434354241008230698465281887264469852574952391842930921194695018848517551546553671164473185968455256505954659975382981556281243368848566492515627591906348884996837570069798006988206348367511992120256054110792347819186825714033426642572727279392136051961118385612402721839011865453619027725653650673646029632788881375343328297161088700216780237847609030678620, 2561),
   (-296622028003005733226720304678648532017105502195787832141697329186844853927196857041159453047945457379112678442786760891560110961302245419584044090030085684847864638198351882125956856166225210874273910324782757208520841354858037656761588494838935742158837842436389563035991261888556418460735922658975172281675298798738037030396563838468790710983540340550670573781938313670758529692867255079901785159152268051168515930323, 2569),
   (201525780529341386910353540806045952153919845717747378964649800061666922606667915050774801703168813828954901810737854691162788646389651003036126606115900964005648435642403017540006970979436927399790340746275390337794137213547886060659002714668110230843620769476303796296510281983569966929726695251268622034122611200368113627205497142204481467035758411403237149528352588508122967227165501355802445185279784824664109879328, 2583),
   (-272657861827900936638751847028521255301557204751236350184304368857300663977669219222446395997615282509124885902754209310961809630468391311253746822712052490529791377136563772406912695154057088123291054709205735003271634157255390277409777246494967316912884555020229835581671265738479767555084652393556892425508263588441493025347107326656281234009818223250317178865431310529882324147688096401242947886144217280986720611978, 2576),
   (324829750155275138901815676253861824921260358129798939125165572549366842361077483619831948691651283808421157010862012469092007441824097228100849312356066421986305939241409310980124766467253160994062288742338157886641016229346401018222608166083881011328674844167803952700295998578899773919972999948072259279455601656102355383066149076916812154618096105066172688004958961465382961759596600668553322123726257416265812566310, 2580),
   (-555193638576877477504594980657983525511000363831436915075175703924860761647423051431320907532074181728718511093079921195022263578688393365242191040551350975268273238008272281151767928148294945055249294061111217942998305741720733489814371547028055100937844407043438205091661186070401657475817285315978759962824385416740270786759046958078754003757549231145687444677199456686546026280157099383772556265664657027096668124055, 2598),
   (116162546264092548191034945951242305479479652625952583451935145587488254635808110854079872041524396778816342884568117332530766076465873790833534014093738529805012559587658044990241748897386807830969788229049659922520132329320471029306082493446915523410479329509747112199141185676013160390871317271465802858551505253105408152519540185050647734595862124949330040609312779379377984227953632603209802730705554707374433644981, 2590),
   (-181640462566259164982795217255951679025553506264205613820164264732115557852792933001535493258168357431667223888783295006153585059858583557276286492828287095844799680999518281418170541547352658146332960794767325588338812532704209116946908817170287153426270409428873728419690410258036827794518915379921999229352159685694409301967693298668947718250396275618277418244193498163841732695872989304267732608623202067296331419758, 2601),
   (453374373934539749638909107168945222892704773829666927973330144412069425703693309141519863988272552098356892128019180301365172650697048375916464143868051918146335173504650535299674068905603731122983697702716083266307914400265506010667763386481348324568985067249908935045225150152236484731323668842059345373343757922409431246285332506915762162292886861341369904388068847876902610201521777076325145545571115630787509270948, 2603),
   (-979029969536055678193423999543847036103943468380007326672327372235090119503701229964922429197211917394136442069212431675063453126688150736062973378321893331550513347645352776789783088289165838261451235060860895706605677376461674165194358590239463870394206006101352421297056989841429789010630118786102601876769672190377437743852048490568779540716110381039435628946903601034586051912534983076083097663615786813872325489767, 2607),
   (153258554392134754222940632663139504767313969876144359603531116734171479822494032192735909715753171594461561530922917565658260688286174146618823981921755939175895076381397882024641710139917193573791672778053636440494466492008768262427658649850819069930825882884781380998935317116554136430027150863927013430456490409027500735435357968511500117501916991870031614113746767685620644904361596824608016932224965524992118135379, 2609),
   (-796875547797629328600269709570767711030872617554934771183547335669420275787990684492588439118581234852529492417228586629588797173254812394721637268477972552937899725183591382265407997375999895709427960412157043072936864383901133618403536130988125056896852224975726309893898559370113450859482796558720054035730984459546512760314564413558515231757191250359005686867633094418677081723146646467834039653852418564747292848607, 2624),
   (193420593469747915997290062575732599542895938081283326890724337869246733757051918927904448179849781703492433148053137287942725802712425680095404366666439947695658755325698648416675156906594238864210994453146625192638158049068821930116231664928886795996981711936020542238887210550898700599645244408753038954599888713525076847937724033785687687477231900736728590739918332650653271771746993194817765997937154996893607537664, 2622),
   (-177024508840638458588820003945700122899116981127409547577542507947815437274492222219078280393516183829489309488479095511939932730578265136288670414762057398470308117305332840628405048541459259375485631772236425800480548927367433409863633058815358898022557479679930516495520136105724326557502177245134990714342763151075368949473485983338086939033252061227184197763591028165687716761426935810380028786374877489844747447980, 2631),
   (141457998019541414473248922545968342055074010341133495780998414135438654424705125190375109740944186956729201012217171203219982047634986415695808567266662582632444730150784796794697500036736753574851914816322407093538010136000488146988067540497498293218552092337610197931330139651342024308650514859139447550065432102757126163921728074510571281109587604784394570118068813203499190316458605125862847609375286287075184397120, 2633),
   (-645812434139255209384474370967003262842973646533523942516541088188731586306941443200177841382024547615329437933148917193271418924119876883600587511537953842203676889989171255939805432117806846345039085726534852757236538687846888625685221004299072671772013040712300144687453085009056939807339144348144786273995879382531355334555661050909435545896734533399733804825796163790384210272079271499766971380523513556622699586512, 2633),
   (102696805564606009417023401347840967221090914097079640857579122363744595581887818019644971374707024073274154736201795546163461988580279937315126287179580508527648285964859953272366195640726048584287202694819756192552561402404945287930060019879886197505417965180160374140808774256377809902389901617515264928176588098544482717981887700473265140399650506952814649691165359175433268217480687245246422221477171213364030840145, 2643),
   (-266427556237500768692472469286101822197564443847818707304571102500523859109876955438501716260178364035942056154863831169480593876643495032974970161542377486082214720261150793047192278840136816152440228621198565387630669682977327598373744625379940828382641034070324143631267607308460163856339331069334973972951822619955835524998958147553709056718897842479430907127955051004227968987457986719302028071860605360702005985119, 2664),
   (694537558470146997624358602589368228516441635501131252771326063464180741423369485223526633838995546726140865923346898619062744650686928659482773923161207926105657517828121901374375548838855390458628103250926784567430493005516189996117878731537230823452052865302970820675345067356394260201168770442088047884595275780527141777516072249074646443671446984644638748651604408672131539578236033356026576819074275858223781139395, 2648),
   (-439411837424531195804032673749386755030779828301604165803826599923825190970955825339320129060411186237098247410374214462593656441828152161485430098940994482489818878650950070913188468805241418962900980676014310001308901878499900606432847533877224957791092608732462719570375731999900768818867098534531352426819790200371149010987089753700910158480651331210175868842683830927483547325333062314487909816355512664049637534022, 2654),
   (746491025455004519328503906315505417022892990392678020233875896512464049373969007618466458357334239366534968455127007335938537737244731269871523351747753633250516616350027263359565872576968349912414397544482255325672210111731924845275931834700627375294620223469556783761933948901050649110898567953548619108947140478334554229588561178783696767421315107806900107150631681045257975347245708191083181204519202480022041448918, 2666),
   (-396430594988545312676392065994984845297342779999616577522687695060974998432112454161521946805199033241072006294946174809847938285093718973522846603615698484651547090469443875995114256394509268674568414782073585798518283465248103027714045736972892340321121153661030667331201480700225842251798807210529319016510391021166108728879254831809732751848389342824220132610063427248904781357106812213100913957615802653929600476903, 2669),
   (778999718085074610381447682275123443924977031430198804286169933789881441831594347335409528293962756829581941851538380751586291021565025947181075594670374556163255348817108422616644894867052552263071636467380455349036092404545484144978103300784113948472042426354308887380574440379326956602282202660375771358013641929302889515042580221842076199663685303762505785090913528768809656017109398967026972543822439340217258962624, 2670),
   (-265570173824547347346510953092273048625351817824231170713830552943336098111994025544026476328695705003655255704106722081800336805972611153878701222771387527516808980966005311771489979318589402863277779768249893314639373853362673278349951668442865703567683952546198961149744368916435701304147704724607396418099487931610113255190476038634873581807565903615780988047238378654587967903176695976110812027693604774973615807884, 2679),
   (176852471840985744702832376071428832002170186678108905737432085788015583933572356893723505619510605235000353293579147161500022908496428341945608081549366362040439254439536335253750359453400554571973179947538085112107447992367939056248358812274117954220518472393949644130438872979107612809109720002638878318091200395928421707272094066589005509994761326677339506690567533422835978328025171277313241020993508623390678745260, 2676),
   (-555978724885926023329165830202093842565608803056821862873293091415089854954330127739392904873123276766472713675752198108347196911635616873475749698500132430582971535297139078406381751957573758499949927716124021985653784770419072399621991289272789771992463455141574290950772509602232774707053060643409969076698484794197641048387981399255241095773145680563829233203693940913482272886098211407792693331146150727246794447395, 2681),
   (774724507062746839814603907129322426437767762872847206539443373778082759205042614546463502071423286547154961134339017134573318300681469232966785816937713927980620038226800436944398888121417415394712689853993660953982416941544063960606432007654489314023228608013804065975268644957322706692236519090001574882565497726630837237052619407501428704483625621469741608772557246333148766335604253149925851455998785085619170866951, 2689),
   (-772268918725210656907136979519324097323155812340390737384983972791504807674821816763904651773496655666497272347113528611756081922135810874189089450864342565927055751544078356507265314225711362813515414180013885832615396825272577001671235142188718703282549422275588988585540406911722845818244327269981863422165472197182055640480364036810716126376845996739915504954486910278487211160479011904820490860523401471797520371834, 2694),
   (100839803097891445751876254068371195902111091852278079937870657284077954463659046137752451897976681793503505771051606000517388922273058379118711225759915208188112963365940045257255712690626370287211070334021643931439329004116142496621774442222947510369906924862660331978837601471689225469337881590173154672564999803760448073075856778063008227346479672945093177375260790864328848934499589452507083666556822346314926570156, 2701),
   (-766613219638774422552865375154801082856635483141981626643098335082771280096660643565955066555607559927471474832106239916579794070704837304951584231982993315824797644037093842148708468396705961397519878599842966198652378263109111700411094992411582175615426939955246763096745095659112168721202346939183857153542120629404731952182394235344059847394088218294958001319143364917712188972693132986015694618256254034793633398338, 2718),
   (113494361296953868576495206234735585328925967888667753612044838342123365922261422852688495926857313452900479563754967782169937070247881170662687127490003968833703504458233971042301913639990234910713242451577608802812768067348815217144423507445979682845433935930943410364218897234886750630819263798472540236697978281417381533736990876945313238709075033698969265941177324751787751328420810896094781728695110990729140792933, 2705),
   (-362252989032058114143125566218459633997871183407372140016982163751647504354058748403879655847766290817490136427504651736637876317398650285850488333868108985215564726258470046795360476694875351541513782297768160356632031787497480250700088654030345650156189560706966069806537871317075051329552873959441015107586164176313551759363420916581440203836615361612438617721336588429116536564528813141416828122353064017494350952467, 2710),
   (118423926009923769513208277627605098529875080758252294188338540918367135820881288106946756609949261699759021378808729908357280111009220637079751972039396210115012786618235726776801353851109000782355953077071917880741506988396736118750856746627414256385416617692918660693468379374187216531683993324757276028538178145939854129717056467883772948768896312702242067848444024990528034695304176669844988438025595609891463109493, 2720),
   (-118545504749239531456951300664211221206537636434001819064713357040702026470897550234308500372889400281180070568539928324103443871544350115347450244748043181710207369867540733396067433429369485931391848462913376979471510672481637605795822922301168879384709323740771695000464474850220192462134444481337800037197809442850866404762834678575709387787456468687197497513561217066134331046077320408266591458921567595621369989849, 2723),
   (191337951746774175595502877402934009371827940960378038207226028726938889349123007565057019075509067051481294488665201868134655898047237875681599256864884195483430711408891537808975918630350440876788445023451416872508358960465494395926187630995614080967363025852945840370062949462857901311896209325780430169703341796026409252551405411877677000058409774180609496294971154386176346164843582510260223665198206330041550495962, 2724),
   (-256007805516865132191624560381443541491156892226640326574592641309093984338792057526880149073974719021934097407167618487280860131143742958904238419719161702302795166929073752537915096553076500899516927109267081092958459302444784380917946699672902929916028021498619469441165377058648193297513347266349346677373619474215113219765498759449132177046027306265666064828210011354519265990866445422711854934510013140943998589666, 2740),
   (797548151263028456087705588006331772448430492258638046226900213636168347191601333379959630629221895485659557161909397425178906885835437626477183443233497181673569615725079108297831058292302426439323712850044502482119531994920627497598335022966700527533103731600557077203635619887601471048378293987949285724364826823064094751398308674181894006403586064050443806133337691857601142097573314949307977074825965226759320385920, 2733),
   (-128474864485306689334228847842957094798561941927850453980085779885804388801697339680052250349075784094309185605182194507579336997138653522461041324134864179339222815975829993673194896364879839073515355447046080866309962203785668291553143674102860307746417420103785844701687759350779590219974023706604567605699363358719422025221968722496179360670669904804856382835268082085155286837012071616698679297745587756561860407794, 2751),
   (799400473655615751035326737482845609817491687899945974908754325783660084369259678636600151690172170505852782391666073591576798102553064641429608706638431971393385499399463014455419895752898431524336722030271753053824881486510745195553200528326547756148297903646118816410121773572230235349171552559044542676445814660753346187200966246593189551661558945958425745261150188815547324919833196216053433328885526599229711323417, 2747),
   (-109347254504081653123738166503631305925400034958600807690065317061069175980297845836138537057654836985129262746583626822260438969794627532459792519648148079656293222341584795975058816217417373977011499122317486322645417165060998133966134817721032225094480323515819421877210649826549454210944083900376949828189204539602970776146954958345674946508168218274377527377882599359795622401959179066410738292792508595943166270290, 2749),
   (527767244616250738987928672468723546086933514500391660256840159950590585075169998530561045565144765805457963070641027540544647547052992950569322480628776067835224853989443252459039085537133929619664193980738707146692709602796096436464032528641649126891400701649481558956013682297745544737727792641323340480469308686847679194002088106602690843160982174805547862219988460992735249669851432083825764745068277124854440643781, 2757),
   (-184060511706510931891283991803644310680935209912565440019579619715950759368233016351290817708050839457054193432527094325834678684248881534765370219264973256923932337476658513495498435996925357904358037723402538171148288946924235017603714090956832756366907229624774342595369756268791155826075486231020231361114201315311803888170105985708985681897129714482544203858890613296972895603611646524470068646852901094952695969694, 2766),
   (225118911167111885962808416044450772972970732985947501775432487624130540678871108011602045769756778973969695191163535493757649663629210819149716719356430454124259953168319924674604208141871125883241284167376273214758563334968684297964466046313879012311264325322220911006326165860007767522590329810280549119958325050902158293084063465987347752598453119198345761948955855651942332544853497171331352378999730892960071848843, 2767),
   (-172442444323284449916513138817989479225161298162113786514845120443256900200644351653745747265652421766250623449094467708559755008332131410575504158558652281127885822868173627610383596697493166582963949307464374577781137524365760486096850905405539859884312681007817375791868855040551978981227288740575025993055040451524751320549914272280536118417528125083862270078829907886548699485964196855560407806167960562943151463368, 2773),
   (186225920645952943556028772476398769649380201070275576149027875005886137934128770284485741432716170052059626152000671590718605354252553037242885998901302224522523098498096475450737534834129648712147121372216002118455220674387889756535825917446310902617586553623652324609886663093045262582028214888859645365259609312117444245093360852197678339785056001521665904179861053061249461411048664483390731708972981859111888114580, 2773),
   (-120938251026784865009854416820916009773210327137384840076676047341064610308884212428000084794756853779606136997184087566563190149949910535530477978320741996557765735528196633401337276324999797847060562864627291814430891641262959327618738447985970397584230814135941047807935842943994436168331897707738448443329697804524678711292881212431735213314871062471100992624041176194872340618566041348310873741474668528478227128435, 2782),
   (188699993658633834343281746804028610742557229564231160879377578337067532343918772340874699331036014311662892810670218725214852649789948907440635801973755401233787897418508288794237815490230661708339137312296768086027575790821119888232035565696119846640559001863096121493261288686541338082338934139430399156364950062438900235508016603546472053312375927320062720510062916545058931867060965910606936787989511946219799442017, 2785),
   (-319331088473896749913892960626973140085880538030549025498864865241766247118660322569930514651956437230345941838336316692065731342742710269351308434657221117929004235259330110388535198998774483915426808291397944049614812936845518822351821665739395936466269110685221621021525760969043251894335788601524874054319233720218392099756605026011169641113392445769008283334613961596963402513185294773335082846613633141522867465633, 2814),
   (515704939783927098226126553013467351708162051907614316909605844409640021206781857717501633731212152363829936216739667535487076984681619264011141579214013756005116539854154192996606007707308862108147220741914341682557122929826617578513329037417867213268634146598705564955748332067986037416543047539877418191352874044232644681312908381292490727944478634979535436322826932268260202740845577991343648572623409839865948246450, 2791),
   (-686312698222075472697071841373604719113768578496441682303666832843721863245974337755020373349760389169195703106272093129040937850565227495136652993943495637201201058332330754087835261093505297452344651841437334815441715067520890517963431837581280357258943248818694638606152406763934762384860901099652255865733293055781809517404872760403658333489797807518634173295254611100871647298144979845749518783192776471228808117453, 2802),
   (262449567990490540670261163832239305103298148928002481478081377915615423609875407647412588711935701266814172442316478064917506304467137557303412570524391371849153561214653909111365750593143808309129729055722659232624177097402190758726295941061556947280067379931482475368956234964313055479930754277615585599674355211579402132481731948903790132396053204492214910675731427178187902545943560241534008027707667738820560971870, 2805),
   (-264927227657447376293719844008785097404716007192563353919412007253995396544584211114483680289770906239723444364478113774033870795309618925274762098244625841741144598502546160941144772027838344960725819686806680776329255231523211570678760027794109867249590125540397671981424109834063077989646080311275184089188439232958758484380422411195734761387891946540136359596395974595090795750907731098925058131977467615377084978373, 2810),
   (114388963083144902485658493145559197717718595605243028730964637731518089766176866732280437456322838918127158009819697999994397075224166479359895126798725202822677610823084625064703248247962862256297401627460536962775123140281460046951090461759978215291528829157493654842101892168418242559441671175346814380375128741104688364156930131625474867008098994951977818045780525674026057378600890931018462726277686790779580645016, 2812),
   (-303612025366155376865903513939842602609953480055036377977784384417791573195189487128918647587349196094811139101080773800175289504323636496382885452161961722135334010577477470341498089669801671526567894566319732504422851751867210088671397551560501691317688781434211491854096752413305192288521240252485538371685207214827270638462960148411216092249139661343314027954039904004637799966904771707633253641689373570858676659602, 2828),
   (473897390201698846668565998372567591112269234061185221675448075167635704880648728685295314722367447771996560931199989474163286973612033257269423002123502164082619028368105622171462969445007382045946493474242003184375931259047596853611531700828420882501212570716883478101801009085451199787934670822848399132156631306992117548176431193778534417156506323961257590065554817491061947515705141575952906416174758030080174378749, 2820),
   (-262811472999054681862010298106626693649590568393233643749335358361080088886480736001179977624506860002198344412576354167678863833918275027840720693979025480862155932766145429999862651450769498984585630545078258557698052793518094714432612030858677434061554442206763990109126490879689823902826347106479833946528426815727192989475044312503613909511705798092856509871407511681530885192990439266256768784688874458710094742743, 2829),
   (684489376086131274566403908814472987571954900437768546870239467505024790760926762441577036512962862585702360596759973475978822590981324572708539032786910376433540816365627979485722604435692252192508821904162566015679999904062979172631388815110285400088609738239641126819207896145803618624178692712352899066995203458183889302537839563309146250984886518605483408040704816128862222906695626567215353861730604151353740753002, 2840),
   (-228170417652432292872953027356922286673933215382864449800113086983201684393271181371362735896528537315660729045648174724517779900634999285373460649499652409665559642523327897277338068360990453168556743256519736232977159387748694437660179844305648401203398389590265707454396878756239143766393836644823982822449061610649405286621323110875873516748889250660552738061092701581037945176442019379202987090419929399217353551442, 2843),
   (101347616355287451003832736546914185563394788082014354880020127494456282448850175554840890575047964145025354693303229893914177218159426690254608883991313295675100773749806483040281419948814679643235779355904241695643308932191257669869252362145419578791513629277305179817383764680600118555729269644020127222665491155757132596931384648855538034790451155752864282834082678470772351769409379282875160219553225640487349365835, 2840),
   (-259659616033297892152576924858087705612096552302301631168938058554985293228369683191247268708816158251108767347192414600988418438396138992424774636450198605193130241471782731442393092795853269572277487171216692853769068356629523945136177731345763986469088293312864908500717750292172782503369312666695107054912059472147294318220870637596493372647868557675572514781419938371288339882376394461925489826909919197621556512146, 2850),
   (475586124272541684343097320223494540579401553737796450983493690845355350057696924185190534819370297073490404955277753191561390046690832937773570477821657923423631924817627838283637867243029403480193237093640977760150696410950000631260251449310763904458063928438324606187285961666909048646492616393951175828596230288594927916518744540921872521708413519210531541785023197775879079839410197031466463590085211934482249085597, 2849),
   (-277932395523335488622760649629124249597144602516177439153662891429441983894743622827767369554965020076406290339727789929639622820652266345640872203752509740860078249449746108403298228467315212417416098259700152227953388503070982367413287347257574165769158320029035543517038515598927971526893576663515618507547900394259054120470918190212503403663137830969090891985715295579431445906866635150829402815085852406996669747194, 2856),
   (414309705315984749796262414085658844806609110051974130570078500295438473687336663271281530472989191298245451988799307966511421695100508930600526030153877208098695570989372718601891272426457002395683362001190199227567202372081441967287957652543423483869553602698116403115243280110132276335871076498020782758524441027014301779213850850315387557092819584703039558584129005955522215878241447509454285269485286889457769190747, 2870),
   (-186696423954077568196235283503931097478386987178197807592320356151586248103469953222956834980606297093525126172791153693116729577354846259801992458909179925073150513952477896353059656521294784232193239765789587775155984921308902847166270278501295335302439592759219801268094872048924986325000685195380713926584225154885037072887266357501747582199162536302002909744070033099785248129911452699765126660556377702881961667399, 2869),
   (107822925143867398160874919700301615872139876560664381942977353855795582480927338475799108321109015343831253709551444237195725934138732333268789183505296593901671865426632308614075373305475166027944908691673319223241951470924629026862865383660945093897334629350477747063671437242121967357787484450798176825435512506275265437682099230849230774704124738000646478190177928228331147766181715215946998394046692430531871437215, 2869),
   (-434478961329602679216636528367665034002663945499098273734494504647410283513354799729437777594073113894044880345810397463065474780089027935926426471459136480275387555409340101114207517250733614556559835316737940670494111350498387712047118327517779432878451915610086625698909021190711700129389298342592333910130873215729717164416428765842382296338843117963975973953020471169674328102934925023023769950582095642109372270461, 2893),
   (520903171290866888634612953183310619124780466887645702678530712436208107736725251762163391001295009734291448534398863226808976200069227538806283021189306985449145524856931518895621281903352283640751830105925936261236945933197093258551789118774449745666044990725802418885167380632963772789736793151712636883024295718385393805513839008237805677104298322180152769148180071743613689963925438285951704776222209799172881352846, 2878),
   (-333757396830525094012310546971402796918154136161099604597072696635654453581290535324932112941392727130227711669008410832294658798721995275586702216969948038635566460445746502980688358870645753329513947146320307731824741112302828084881641479961254559221873143893625961951063520974612041707950710308269908018908160726282949214059649598365559902305055627337743345164558176254050631699852558225265780031260011968936395650998, 2887),
   (295789629380271887560834153265875010044557709329220718592239723746516788444027594258013703959205582322659822325430513301997117644733602670031414791703921225679163020423829854846673863774376083228874042514185336663101149146547303047932848017266441242240043862057538203294868742452245432702189462678187802575090289240084771930929670388369268990958551693576443432291824333101927602393839017505740054656447887666739368100320, 2892),
   (-802367416017194495559789810897847406864440827695031188497214754958806777412141277667919708643650962473415133196969660983893201476386570367625660545754375795818273389639380944524033785261213074772434118760899456509307964240938092251513224085914832882992447882244975368863417220257429603906799612452247330183751992027498120514161233831658749857648027306595840094605735829860605704114535926809584944479706121566948842857834, 2896),
   (498587616218112748306909542453499502585905144534969862079224704060471463331593424221649298229537167314503019933947396558765529838388265818792226395549864676830493281089358417819201020781162009396051715515576098796563910936594496581255649889501382797482281139484228061130595370436374185920580676392033240642073313685726260341485224593307519656938339845797028113458403626512057573089875892244252614486718853404542329268671, 2903),
   (-372823109700275606998799396370713581111530415635728429619258551652984219345625239776328979069802488493288924957906344311217831569418927091193066720778381349985096544646441557758991898734829191354632236631630430216472124307319502068470119924056888755858621744147206721214817936711014228221999913063703055987785034401567581009112724558066333287186728197922191214095795021525058382969562799072832107490996558873545882919130, 2911),
   (684519228693334908919371241003124979737706949701600209108051514179259893438124186861749223069465525930536614866468884459016356195071670580957292514730918506369057583405541933822062092789013178342329565864768909968293296637010251842703301062543434312200798852066212318622355060431783715325431675499766044040004659034472047560737196901751548879526814343772596282664597853514197684202999432199132220732183125239062812370171, 2908),
   (-188863408537320769628944315555543968225964196819184565142843151018585813155615781470040153849240728346558628194700473312617419376265222638678136721526184531762821558508303282051792444566138045956094049502532887249179830702048565873126853201331476422152174154958750600963653648735111648111463503884268325205773287466648013923956039961309148694455171418713689269416364474321384530635528647319109961853748406805577067977498, 2919),
   (415517435891025083621561163325915759563336368173232615367261015356172630465518938364945390372171683819574233699474409624462097626165131303654000774158141191757023164124311960449953089830861666651888179296441603552394944298781143915187281724323928562584723844760553227287373873265283037345440375592294779513237011932445011931807729103185431660080663215936101662462162698206724979498360836196086459670823530328464204063015, 2919),
   (-931962988744452603202447026585163422987868560322389834283790932086446391547479629811776122087003618032144453091162210064908969323406173861787566840065538372251137810223704391791724530583790979231631941688706610601845432677402366158598615758753207645539965050951177671248248290133919483119900568766572805769258078297630200367400404715246250753991079347959071735850022310321220782288846206269338420362581372297171398536982, 2925),
   (158355073679745618904573512370101245381528331490536242230911884376349591366936322022142137001868738939670837113391827186196653112386053689425333867281033575716688502572889637762505341257536698988145392729313027587842561136741849658456370131323129891003610173330825089595277763344468716043084678974003617068309388057077917862022081232226576096501364632015289059358991011859123200175355924450559381187881817984365240382518, 2927),
   (-151384591320048880970166573231949015374330793491207384953739459801711519557761833035645903838424590370928610637275495961311999955612616418160639155536512692851616927918507641687087151291831737515521021120790463301086838519218512600609873340363214623445498306267170835932618633044362142345550095472318191270038376102722386269066741180117239999659821450145498598029688440811833046646497396450724763577849837214780167411518, 2961),
   (478099405487744671638150129438119070484540970650486260275250007454125748737743366338291416667261009964086446316312531607958853415849608694136534463993188048463786278975520222336781165355084524825405144156116262330635787298594295536860868286992111046964368035587992755626647260071439019248553451755045636070544342552747359041271918661599786116162902721637655742579741529690924667304612126919268248916919906922208664979685, 2938),
   (-290872499429949045783391406969579754060003749294371452434700940636295924806083721925493108810950065661884038946444009382344083987306060192018261834121637565182275479728695362655661768575241091427085320850881693934922803147549999556475959373124631523423489771970047945722576613054781903212031915262732840747842123131006676129021113356498650599315660118240834867617958522658599548796589491485002178712125145056222947015686, 2942),
   (164982101821311103888079602313093567094669572208200033105634537838978391304329930010508901456659864461235947771995681379912527649352622109628941121518057541718013961892449185554238468339239632239864151830319364550649866153357923824733430269543677848994223391450995218235227209025969144835815825242919229439225946854885753531883082996123902255565607149625778746326037554509853637698103046350957783484749010489273975029075, 2950),
   (-150983048411992618287768736814500568977880763228828733808261784549765070305722202795483611166634469289565576111559289794432256975243973157753704102538340831366744061620339814465861123781016289209302203927536967724009908206355295622272617273432616548563484906837975453557361544436591451713860890103172705445245015841930073018033025009052323583912623434106520408807455895520746429164860592222871237776775918890093509579130, 2952),
   (314614535557334642532250708838934957472933803005443585399871510953259133014899693836693399064468574246037188514657014800481546866596070040156052570689825341954014676177231023817423341826242697460677983441493373032485728628720989769015885855148379806182525396729416538952476462718556868311009633561478423388253698254715689257913922250884127343750122214326854745369384396146833470795039278957425457123375629717396327381269, 2959),
   (-242498550906426379079520796317658766273026668050976756105310312099156944424244264542026219603963174316052757637735624655643401313442327372282455766843900968996413722262390911153896469205937905653562184360445058637945658921833763833412445797923133209091520102230913664761730775347474982612453097676894419961474170774854259423158639668788089439010721506068008007236715357794226145532569135632722951817352358303416419212034, 2972),
   (264385416528219861003424148982153970006402315058596319033761590075536044266750539371450179611046588976101522666911593996961189439787261064003416671263446986722506746391657579806309465223633003993492419911235168090754522762875018325884428797821894310445273032879644259264211102019174837506271200276611246507735126472639384983821933319526044137971130240926855325722798061385945222435611602906564183351516217915071331485102, 2967),
   (-129190333478862901158516850910420467185322296267982478556377109553400914295571902256761632270150917870703121730281820130236823781361298757204969630351340243444916540430413872013869496241189874243550003105528585296502403568742840717275169052734853941099121464705082881865016124972560650092882330300852207449377758773146626078584866006441621017112390604710055097727397785146428969993796684879328072529941429437612267860623, 2978),
   (726602158964971161980077731797945800924101145750491446037003942965642169287650743644128664809868791817708598140513850243945942220509834235765004673845969578200105919266716139988061681841349487493831656919473736881604161178008471840788716477832691225006872190186697435420298756407135952327979662978805378401991207339241001830566531333834812642816283906831223844680439828282113838034087274631347509517117683237797312634095, 2979),
   (-248297239879686562170427861313192147592443106150931674852748015716899484221857840613735655171803480720700192568539508209381186082173698562836072940349093446337240293757207230931110936331503998759820022217423678188364043797994680598561180683853707160129739503664377271706598213210151837104498151778132572338798526594053323488642201490181710381815769085289720449014541864810108428373838485307700049401515057954819946475299, 2984),
   (154059973628268003812953839441164209534546073436394923880956189440734961206820931902403039762963051026988877709483946951448247280542245564344706494945584052709032733945054365285885176268234148155519060094634744227776624184845622586787038785875641483292026748561394799697109932011366627123726424936723992558319693464938633470455556194240828130821116391874676051926229625165365132359464944433966509267434215568167310140225, 2987),
   (-532094974499830128677040386455189912890188127490715534078056230762105974051766088515588149161860155897694525392756088725883963750495679505542022527970180163775428852261991780469634781759909649345525386290809740525623724566895037570624256664172964422073262829894971724383098054536025081441003988275387470278255485968510291507483160537928901027910867250738459475593182709115575926374939566451930261558649703668154891107916, 2998),
   (177525251411031999654090183570574787453995537900159355518403494933232811716620506928540941122959915547830742820459556091077888361856147583822504348219515856161311267188985878082105478145531674133197013126923111008896383971047931863978408259046242554172267544519647371738812223356191141119674438387860026370480727914930510186755970143225453169099692190339396496842593293852560780516764845843332378140538240971402898238988, 2995),
   (-324886639578613762075015107262787356161950458513916915786289181182683118904664935697013064348916632396343966708913223848654562058199376901557994480430463063070168367273610814823475022444548770174154556264613734020838937086505168663794413603494473929589051650287230850727159568901553938362110238183310001316828624847755702689062011983453690490876966815870029442399303101625890571831382807016179804810525924699670022146784, 3005),
   (480038111979290847935438790095885770738278028080866778494528975349187747969675941920452778096279717104670841643302834805538263583722288342991801013355657299332467661349376519724927372161970714832873894491517982562166164858884871978227376738927277243627124889906979461850191827431076833254186614175557315460956306613026748837891290466405799614050352458680491714732300482259506069273409462533754296667198517947638719698608, 3014),
   (-524558591247119719151557315883100280209869739234385404925946590884781190478131556911795333229755592932212108794749567735417493666970455474073411551003427054200378215690531481552623646196860838310969107856351514201016534297059192166638229882315632590417733213783880760088377514298909170669437032161192354271025204262065648428730880767622877705831884900862033394281081807721553449033000348046133162023340319057723446397038, 3014),
   (535553300993941766940947501065723497144652885822471494056120035077600904756922781807835599068113717125939347557163956653860271817923401402662730202795171669688835014727633684385434641167381667654724391940970420253652759776225669778106449528367509428095082874248054546297190247743372943890956146033832179438770660906496203532657542389426248723043919477922549113134537308039017431291949345364739606796040940581898509460827, 3014),
   (-158064442612414733015681857095314145560276146976304254439482548616668582694501296617977004977818296217089849045090546533841243851456811168293505127110374281582771894324555485950716587881246877748168657266042956561865018666597273261944136422551467895037888179349605716435693016664809828675836717208515985557617205689336207673448626970804425027718958014735569413358693224698158745684831917248895485528079357897339910206899, 3034),
   (298303321865907473758400884588444269355070900401523534682111064825766096958686542748293575373852616896050180524450973074503318147449772029991998674304859451138897925319409623812874146189914251506840823566086453608696989931334720500576534743721498058341992711960253402737886741572455680616108880376336027246337724304933313980661993235798371862680762346382129282957578152432815468073515278742091396749636111456019367677143, 3024),
   (-646477577476269203456913501398895228261630248680666385107339746225329089305960350373929306177792519057017142465075164020856686685168068813993003548289835369312103637255337337075454608207374948338677183545874942674858242268458590975354854335274879512767424215939686797803636741169938476760258396744627262430796150194236524806543217463244864251153911529031347139659863416551034689621430145902761016236541206530215517319344, 3040),
   (721916258259515565581694655010310905562406742556491709003400525905050722859367146440850932419698749756873405585793763145047986525108574542468983379227283935514619908743962434190603653857703274782148074859461227961453044148728640559376575319068565617602085544428582810491134145281108814268432727706264194591337950765179648062408694060354700537896100685677806255091214304052585769932217150943671329860569840340138173681031, 3041),
   (-544503354340373388755984862467916127281499495837067207230542734239523231618432107193465941719760231203323255981111522911088975163100616579988861098082125481765190369475533317546380065429120825419163840165466378336540660228697439886607086985905059028393032354293703737003100745222071471854331199044345773433808676216859263723539765864763204908026023297467312171057835349929754934988157033778141916052713693129276261533087, 3042),
   (951677745192575560775488844079602450544736482018202268925459368964559306508532227852180670982748541274932660477642477492468938353910942146302387378975242740663125374885082125051475689531260540121546658283978397948210151596352955089097263301580677593877545854050704834148813929645951229474505768408243766407958881051034385248755017736895645088295759095601270002130223135798374256505742952071511447536454745758090502742387, 3043),
   (-145587472494096395171338501855719303304750369934910763864057880451355954424638418086422159771029433281669146775880908719260306295743411666289733403037115018905415919234430932333369954449817672877370887965499349136531504751628481739923930797375368429644788419882617458384989424849522242331903644063853450892643827536338652161009239624349767050966786659589778634445276853995987271977759975748497993361183923704339881115849, 3069),
   (208050983035532201629370736376949952243508266761630379349469517109534159219431666598025595639030130587984453072112155477398338596356077834748142539804497687626735046970925694088219979477756670705287000368429299273144222352789711588139707545261180388166552630438323947538412844400557276867659560900309099966724243075582881384106466370989441041535970833602186486597431931147333336235683550721838869680835741763229580271381, 3057),
   (-358675240435725828866864249850241432423988061988748181349536795077531790323419478504429753108712031078786674218899434573098807061860141724678199179713432437726177395597297370744146044698817838030024366366632965770684432983403163046996076734214065922213696046940586320647060018714024362552687235611314729352909300375495415886059185469349002423593022071746395943749781002192124850489893449753465298483591882796403806521643, 3062),
   (227172634698821382291907128516181257238939820347645176770219507626896288834117616856586831349081866194335182855769331664015759202280672404458499910621457158793613956851619400987228918601016643293169151317176059615081081471176856034457849702195541045248568873435875299516878710967460317492991299630368315300394350974369115208157418585987017117339382806247338447014343726624288035402300424271789433955118694727627128244274, 3066),
   (-348560536733236374247951744336942511620950722975893750229808086287946256834820104188048097311832484133299150129874096932194931110525971842179721929744050792890365379142385694669248569991053104020843805250952533816029318095951408246692705882027749339803072141845335645566259581520878819481099295641167555737755565773035334600518158337085459910575585349123780982770876566138469220608527548681589748827801276838931508839955, 3070),
   (422793111989197298954731073209707101255371512025450922378050905165788169092379284649418260527953467637786944928591480524563584341864736838313292607054986934533271274492180094173371667296780894072497601845563989652476373993761627612111935994563702412702232208584803039428148322921292220145104094115255192046341088849978663251842330592857039409186565003787735598414720625398660674961035557281614325467482159052098758572748, 3074),
   (-478036415504464028584894234310717475568717758752522039879504295540633868797968606316684714049235575375625534312882788929807441375059036213113479488106062014404894732395595424576099919862505712616052463928531949876593563298933672425751641261693180576216117255068066065403767739066007958091635847306383237820016876412068038621733937684998871622528931678038654183987518477708739241372226422043185447773824996237498295198856, 3092),
   (108237149408885239039800665800261186880421516121470559816818825839619319530849126479122603073112882723396625179929843311143517282780986173944222894380723083255518111004708779358924326496563759071974527381808571356733048705995256597004018669121655651541504383312200831002401298696773588253649806666325339440432883338890124368572284912913690593915846893841384031534409327448947718122317985467795316473040668339934593074114, 3083),
   (-708401386669753046338064645156214900921128699494646888967924769808464054570947030855548468722430441945766962745349058567238724388038016427015783599255644023483214855638922664181179777737158881459564653836315655393897000145928379596118559779623261831363278820886508299164620971128452473661012774251204871170323767185953586957366826794403951308912743224601594886009222478397981689183753890975778230831473257426411812064014, 3089),
   (149446227597902810215437714798232028703835088342065571340212869765397407237999940724217487958281295596126229675420014345100448289621392993898199932595477423800270841113975760148098160578394062280098512028669152923158803289861342092470396307340684902623623171179518189861034059593133297980851628428739690321896779044128501047444482682552753596833537346633696721002392974430206617874088109085418003912069936214757265228279, 3098),
   (-116918401667578264147850362744476374731098279084847229575510587843369898703295224072813006822252373583416822868154858975314312803912051627180564441256489864079699593606639504078783722427335935348246125843439174836098296881284655304903915362378292350851564309808202654024641253032517405007813635841229783981919148288945175515919799604474205159522918683144684054034662856530736179631174649565201376860469603506080515805744, 3100),
   (756149874200264526404991554800588954137014908662882832748103263153444560264903792152783479557515067255717528006078013589982057028692109116467420562642623696518019973295252854406287115943613882168168630750656081271353243187412945218759698415022399505589682747527565510001848625472012198763370299475980551179574729338394150810923103922873233195816064395085201412593981227164488210809208923372927513923369006143415056020106, 3107),
   (-269692386771586913110546419913996394416458423660221928433268479174718825786087296812079601329057690253031528013509498006477944955322768645990289268154267384172353548682270699298943950236171212140851427545635785177688280428765929487657095208989433673409936309546632228559518297608791311962779735237145770011013879963955802311454976591252944417088807132500191600924607642046589597003571387092830317333453974405165829310758, 3121),
   (233450822554937951330956430320862060364333702882804583584222407721285243076878875130548338265026299512925242442761701932754935744648430731410320878515289211362027832108761151520919862848657254781087949177107116914936974772173737354357036796162194670077539232007195829366977532600815212005988429323398998477548714627149804895773408225553987207924878460868190982115668220866968535173073784496636423942924324536264215189274, 3112),
   (-911186566725445404461232850178782709205152136854745888652832569862960641041821383775465859921190446039429615022318906544000052411106711170299038964198422179864129690830483653682535758642005777832605990728513042061456987457717406504388587178364438560534217611690062933859827951700146953288808213743012765547150864750408623802683038159897741095439728529527148484287796713879217498735493445118486311949528414341455778444107, 3117),
   (103055264047987722696206201872163435580213523426736060994931520493533759487166079520120172777042473832605584717965873222662780152564269654847305625527418642944723356793987089585689449400392962096507845688438823738020409215325489061643738703281647459941476327236647750055574365921211841400532205182272494702202842451196943921359105181423584771438596870915209762730401995549714033243708763123001280676359980254105150583890, 3129),
   (-272866923441325036403859478563040244094911381132844199671090234862876170470046433673173042653314468550943672410207489818009838747180895365696608017138802886865829431219021075584549797171389188723124165464404807198802979213569036721137699241423110657434815317023961459605900929477059187764213466993710291523164546690996568424735522178229673928468241586655190903117326589754255108897441016371417186415961256864636597483652, 3140),
   (878804948098821761562476229062823826909394266151110070146851925845895750005518950672382722804886748391695063030504124868416910296034417318893619591210641896252938523296702412756793006470100003197585069544097190346397393055619472104270680090029546249426692303362158193796698926579943826221958569004705239587345798611114745219055543729016443901712639390506019644560600081723514836691922676567302903601738743336186955082094, 3131),
   (-610024778311581765158157642568225117762487986306570624306870980298628993783166694702910488993362224544627162365443326489026743154186288744729350598953971528084903087284402571772686056309649826168897410215348723318413107465923368577288907876929969274985496256390917982451159131531502289000883495869300067204266809685077445770947546325033857103241844285759025886437105572774842587201570638735858743578370474949865088882693, 3152),
   (546587030120936105535856097771972506857860031261805008271211519375761274492151181611892967975860384638557032175763348125571710023936701151578467245395268716684080494461271721145938064377003878392672780659089237739799731365690388191483984311400895010722587125433344513010869617541113592278184308522922437481704217694759345485359048001651786923428412566103875281609660380054672051972523180756498994338093688308455993562065, 3141),
   (-695646433600715556383112391474873011308549959576045383257492356066658046676239261262731361403170099782338221811393710093309666927211668576730863962646437020758097669128959466646971799217648048335962551693494584707255890679439061969747005814748468418918713980028110838968190838529841889608891872796552860329951016413731671549164702723363345782052321007131011147273871322427356636001003680722256295158469088765941601858337, 3153),
   (818864751763239583359113021121255603437083004053356168437815729475097399270713315388937932130361941010121567011386523962396431355225135690425508546951418872088024873569749836390045595769513429640901237640844887576898936259043010044173449065627270550658138027480478286811778690789514020675397202809732478994912639690648677502425709499631363378116540029641900059373145735567908816286563056823514044089745734799607275945871, 3154),
   (-120941659753090934970940321865105953105304504468359621888313306760710429844427686866605567319850635877945327406681084992992119185308959744395802718657377769736934859100618251106087500507047407184868993573466277419512242546181552410896305906539660247087899350937589687640261917115634650963827777873634077590908960580004751940244061647602183066049463219500827023448541821435735075081978821708240284823667914479847433976718, 3160),
   (217262571049516981928053734100718181201319167582421275500907169460475751318536161347836353742660603676544720255615164158482493161497296328749414504800838733651818623022640299618394919554858033208604560442331981664706406013599544566502158339548119861195763317414716131784907153575384779319878030548093441667330063887590751774101187546300257069557844101921762058033260627929282166590164878484125287001435683954521683899183, 3161),
   (-469850904651565831863365242814497569745575063662182135598044992642800212423437640004795908871319599593022886212128539539356760774883199213369652050020294487016935492059176739889250031954277038060308747317473487894992736478153690806900595519862562106844283451177413427258951186194985260705641400256888615565411164352141979627607791499367919277002242226984691372435872357860651179001786750068392862612579872930508465695303, 3180),
   (138843625163862639446149287702422596990042891028291684397084801481615490686467494749228592335908568209056800559136066211052672951421861874610802105524513604359012407132319553054896528361671606616668991347471781724882292950728226224341151772728474309858663831288625263513749980178618772631949315521457163481542205141657924410565164018968438297820892404780686620842069547989413177300178876397571115846313818959233417821368, 3171),
   (-109642234688684880307589163384505774632890166412378449258218590754413169019148232533029276074448758545056135061110623758542775340717606586196422281799885904246835411498891821319023542090822409775087758376661786003195078073689359919876009687871253914160633256441135584748175193002803611295292202445001684809313895396800375693064018460236372234632803736078438233676053654861854919893527607852129125724723388995249304259557, 3180),
   (106125645358708238108999194525807753875259290564232914390243082061659743421763784199222549779450332770794342108553612147617904285346647173309600825286981403900065943031474977292438368063576603997102311343826662327658570365409626557298469957692595016574819326830874487670893581057387384852366086962784141041896482215689734017625027742819843434361169211409821526011802841346378835479705995842665626933881042835280834937238, 3194),
   (-360687009788152609743037875297556078440157122593062496123664366233701329106919287514562242788255157087800309663498534007686907445248253900759330303285416859943019204588033975515296083246000315491111455610271090752463749317995901153975802182601895425467145850183191086219827820912581149268147732300256583812890788090447514929207801393018579971380997541730584256960182167030484608152396831698047948040830589489434018381271, 3186),
   (104098623739404296048569917787027817072529973332663191688334115070274944732683256023157954788202018056664028654256328407622223964661092368614662340628828229198421049118891909984507428185950801629589371979386104127284361208877920849535355105374268875244101411966070493130154773597813256440570071506258328020607594591547136559128691222095108719890253745915306464113315195238775170839220804672131284619205486415900208027083, 3194),
   (-383773075767529706716503027308083849575856531242784567098495193346549394470303649229140905896753874745281696796346364017218370504753596289697140178475037903877476052488608082675838245766893684578911328217871913266606706730207401295099232325854685034376332768695054061949881083004162771246323195415152918297429586145879711234876530735837111017503026139439943577812992367889817148577162343680562591270808450562791839756551, 3201),
   (151023153388084976505021640068106984657479672598795180337810174219828429000455893353794712512920969256772086321411289695841852211953349361350097033118633534174468145661852194635918849261519793547710591060255466331351469243004605344166810332396361687139688052592953220234995480487861101813892621691408329348637727493552343986725334404640316174875233242935672476459979786876025139872528754090435153406266073506406316529283, 3204),
   (-999321166668325798544801656026785241196148068636821056815041361853200603653280181028387107105455814307744813388506191688505876926230146649031287968973088420689036766045074686983364194870765585566937541702432536224889627707228484742848058114278756291274203652182336722042242952142641572301854205173667422242727949456318331588496314686417923795639138564704808278344071399523073939053036269092455108559476347200181031668145, 3215),
   (548198519506237110282007270329106921354408501116309388130152374211707659819471713377040386762179595998317994437558215760866999286787829644497771049310841513092705497114573526894955257637154254772070806852876996329519454358238469067335449040547637692899781954471651658770433177266631508134466051855870121544645813053176872135159682381441475113826979558421672512124075876900258585916161755881049468325141593425297761162975, 3219),
   (-103431851592873905250774406525367268391397491621702171234670796377321508357780997289372414697707847402727980990345569240770371314366347461569302369524338294658381985670218799794632224200087680363542838385585582069845282426072725957883206423794527754060072806669672794843045433170786991177959542087522957693904532776588080010674678865434465913440428301091790580327816424186356902004586771075182410827519397936037117656762, 3216),
   (998882338688121146563352493745824899623076893151414387102195383104071209575908543814701762910933557604867057438189826717979893619537353801427005816334854731575644196045429874476205189961600986687804014658869266817333142595289946093760504127588978501468292795168366086700565477593018706133308702764917795163079582478240204756130531975848860194385035443400537982382187012537496148148649533990456848470701680359565893179986, 3221),
   (-826283323700136544739052633217119514613306582427312711161226721379871544502385319471448331906026063204174491287129246911729164858572671128858206778992146157733557564320971935369248049077299837399719728071104779148170293598959231642675880189268536676551388379828642473124307520969775681033514043138416978857869056892774919042294813395072780400161120862155405817537550691314948373376861367475923911285810659790620360361626, 3250),
   (122151497333730205131374889198634497652379955643496724869225865791549273202833591208523939335803727728197654256438789990319035826844376934777416699725921124859238794452515245246776325329293201586735773853996397465077215756694346333059326860148164298232145713203523055435691351036673476021893636737590922598880354735228271440311736304601646119667221219096867295618989392863175170654681899178963493468761919993532374440415, 3232),
   (-897766660077565661957943824717106011028751342611014491641791831083850883475806326877108668724067049298756605918378878916449769205576080538948792057764654049568768924541821208491616945852930759298164818237167561138788720922363194828236312717228571118536084005294579060775495454041959021490028994683788078020354367604275857554911578349878142156253305462753940775022354251528611542776792526249004432543264636968623692995715, 3238),
   (233770255524166933747252427416823096133249318515839486408359995328455270818948986399694195166748416940785550121239826601754965473981385173333141972095985095548838713195049659031894232749825953111948074015597796962880616336935998901926116193415404420352083483995187994493484182906585225125163379526306592299319925638234357678654880566198315065268609076570282710538366559456339374656047843092660428150430849673150680814173, 3242),
   (-124012191094858664750249816370978596800544727248868640360320936158295680436948837417303945274616450106335938313978421440948327580672679089384743981274638420661196023961007999993201998329956177617446076990484099596869591868003271814404002966685833616370092321661032372795572354848333825589060326179240262719815351690357951155923951504255535965749875550562386503532354651256347642965203299410560210026140748217020910863411, 3249),
   (106191104616858631848290461425948756386373286633817856429113235229655145630681575915647690211831003365936542707855588494372515289097885741437441875104999356364647341829614184699873406227222044693403931096167607021946402137835012883253385201852039426609440257424905004538667435801855760967052255781306643569646515080328485308925403160964990627126618055685493559065000577018853805156356365335400136967033130608082410484233, 3254),
   (-182857422420174957762691137245414164934038337162435120716320522086012343111221097783162682214697527591632043320640368715520160487375377423180987477308116479290433264800506913516367277641059975811542168224170759162440223258220428335700215573639450126891909601202908469209466025602821251444047403185798525335778855772333503214914704866105429158126613372463825230344959431105227609144370497816176310102281760026958875899779, 3260),
   (369121430280489343090852604113063101333789920864334546657768676248392804125628016008327069968209808175694380558553261824850441452949928950324882370830847587120316505799257141976467420141808104521238831978940515643398545443417395369571367100790092983099332204407886754424021737988467031767106655231251104549758196781038309854279649004295009604131475458155715768098732086075438733951802934801805648716273769827251530222465, 3259),
   (-154089129312951165187097216295306580739238396093600255601079588426905517435349750045902160208507744064071799347528325491831848429695434756056844920311072829585283017697155774736813096893836201802106541378589871092867085483503514554272480201308566142774094111626148387987262157550601657426560796831772737952003546230327092732957040296198353416068659329057823361534726040306305976701801613405858494168571754433166199487176, 3265),
   (208176354154009545282982875722367106875191152321016158168125022572869809911727709341739808123770473767069083496098365621105554990489530744177803537146519581466485747005261112952547063474380319111634293451296575479439956345128800901042745549917238584307914962457270977516398550509294122879338525565904341930767391068129992690746598857822795442017800811959175544860216629549035691157581371912949810946004748714666816043793, 3274),
   (-154888792832002697201924554293068915549220177324689645246610771049881799185650378170255937246621629978203589123588066158694028763376799546186484962045972659834394593142527861759695447887054358653001330965218736520692354282685736514411512446119870665247987585387633021160997184688771283703970900743720164701897826874503335405323828535875075888373837879915763863406549171416063522313987167669611339913677134873217720430770, 3286),
   (331299413474278351201420968058285178703260417823758804323284427700675636184177319586244973457241620581640625748812002423715043733722861038530258341757518414771723396128201340343201600071161255576438897312626169633101556569491588220269653759653088702570762321595727768050198335463818738960790489676437362113768860720820411528810587467330053775028120341704076567986059724350776018876142427511026321902151060890830836364658, 3282),
   (-120190322087409606282033328586338731443096842377353325749224042700082495049682271135098931373032314057547434453636315714783485846004924144580653556547746141839120898126682001291525466300643088781622710989779263809811241598259193469123250795657746519399133269127899018941198682193990971289173735134158854906194831496534459557205685352305192502464161088951131261767581306118054226996582105220809980362454708726235807501435, 3295),
   (496288231332113162691487482759391050673564586961794934831069524102113353183439377189861664554919126802602067309350846633370075974018393284335757616272830199524052916688193162273833363590021078050192137684618484599564472715812615228917437838557301291094446477120362674200310286338797689085218000651051797593040213564374467358478737802947445048685091555001225302235339070660409242197024810387642844445833380389157606497626, 3292),
   (-546530842903080628217839949193480248188903275368638244560315029371692933485894898518390434176268266580128091666293926416704905281455222653253695961564661458417117390149174931190448243706591781788378147293242872520528512839684402018738957826443347707999087672373825952410938563515028393655492016235932590908938716257145663165500392618975598022732779350029023998486907233494881865256502844812031222401555068813243620504791, 3294),
   (148647139980091904347421020178503736447452615650184236126210561585458935290847060911096206750424028890715218944599408868962000150338875229773828036792010448203231882483460372031878505682983307760802787941815419491225202352994034649822640810694847920279315040426377618887695575460262926128855737140278742536957421117966086713140643085894207704023483929992492627158450942599082481662251765668262460891306535636020003353297, 3308),
   (-393707611783781177174109226355188061261644109254717643102512471804876813648189435845909246521737238825674587938488360447500830421071811541290086823458182425377182685136062976439764988130135639862167618355711203099739796027248629119689601505613629686969052625502573550124661207059903356971351796952789410761682672337264169418635378357509231063503083427335544294157720620203598702219508975613125553409202441759430922812404, 3304),
   (176344376583189903166049843274491716399706513838583008661954690518781347042795030924358803218628046885999171179652649195020577303601051289196826613638105393356206993670899666833301799343101056438991396106234215890602937443175763780842210940681925948465432453295609891020395428026464855825263490945166326018997683434851095918847711318061866000076104422827968025506385696447507795175523729518167240523063685979465244817845, 3311),
   (-355385480971815880475623877477795400746629666695446715505719903735511381779398635069753147381096275790270873489150976165519685861242430228572793923017803519843008031861845529588485193055679027453935659273102610373736226430484492054659695171642572027781488488871158961730226493002404842300991271033978940861201386529504025318284312597924620208951400858484027706742084531194703862559987433771169913108534076667415967951638, 3331),
   (489384040129918081615892823930447991832782122458193959468409941140776105310220685857722332459658284342721658494299225805054962189324532084655427292831008324811813487196255920773992344197916234258583943990237097241153150524953126509372084858860956001347954579122200208644710522094403048465653484777982793614142123547480195303835638734493117734994471706636312491041952582920040183086539864994324549660846576588119935375733, 3318),
   (-348404590400503610743233786481718590943634033209680513210656822262721584397318915121278751790307329840357155357587417338897046885915996342136706821464115894455414428491914857250616370580259908350382479943658882715153514766877731298592299850698089382588396888465805044559940103572394082474589870904033832168952952747513630475711684651475864108049473194670335170028580776757013679558903872432657090913225653993957919251733, 3332),
   (252215245847326359008805414070726314557666833545885582609978104721732069625060840996288146658971394949687054132142146723525420025175526418052789048925739317312246221238693773623429522590630628911778562809004316925777699433901545686456685021120730277768443799704013652549519633208181515514384231001789699680880722838765389773388971006716974608247601431387291827011144573931709991825925234775579509293492285944644995121366, 3329),
   (-155085007256428431501980462679852839853270629974068562116267364528899273102340615656978968925704434785258150246825222384631664604152758560162940363045859962910798219735588987423446772437283026887774312338524350396208533043471759971812528866640056714710682292008439695566431648523671648972128757425090415659192164825516103458421078892004462901969701229590086557483988582441902126381265789703984118584742466836426801821123, 3334),
   (494236751298037057107931712751039597732289580450207821877685822326419947735995031045899079929805319455478288845285995157100818676882075902100787901974556988893702823756894787053655066053094282600523878208094268508052561772311967598087011153705756413217692596507439755442458070703926240884294643838122141112182457949252697568644348926519910964843510719178836357396873330926585301372291749925935059706077069840795999460155, 3341),
   (-514296912361099106824826492994124061043269195699533476970896482608828003618685694175088795542231094343877361604106769969797759689687882955572185987939556320934981701998345100652804131227741577109229105543294801659121849718670836321592549028873053688260763356100458178463631405800568665547384419252894001227313426900976266054304777747067691989982005873594796112837219208616441547954808840873733548256205578135226196048290, 3359),
   (220505209595681684752032293851844444676034660195985227770319090742224511723041743847443053836373458587961045217566341283302319007155330335917633023121220500526450103691486102844248680811395650914180270684157603778078722786704410332815284711705314798255424410130245395607343530580180356584820689989074028935974372292141201427717541619963046005698605110652925477949010090722238430597844720369668449758423229038664963712346, 3349),
   (-870329768004064721020528312823640113048676595075418198428638359516995658328549374267416118673290049569742239638760333340340209606471816754970341026201035871251173853535432150493753528298926361627301855399581599726995767503909214902161388003497881386531329168241072041574674967268795375758393370831576004074639439016014243713380860063511462711588158574409976764144112675679807235483299880661808666494275524032346757142928, 3353),
   (124704330775369033825789721716937983682787272676635589790400178860209655344517827158394747481946665466025204099011990794521167028097728617489930415731343126290353114805873377095186220762965306367310163709925717051610856252212491065678982358001788530155584330397999405342541776342515807547363014281929719307636913806419651463829930272986198550771727814298722686791019509361417088858185315994127271301249950593885794017895, 3363),
   (-143398288382523492078306761694610944555265845570246012742335183962941703135133158158112127952746241260076852512925199973146637755426921383523493030837721565306895985393661371861481334268660023156136613996277080178508734877190509707677994476080995134882000046088488046556838917722356593431844993867717685843470015505271896128881727633840958481949692591569820641973003355733280230020819380247394315196412923531688054318762, 3372),
   (115451418131456186884701885350675482461189531148624425704203816732167230815678001040352173996403836847287986311755822747044762193073122751771997891610482526792972285074531210029281721687152501101706123601766932502122344071630167667593875808876713367451063439069995474211634684536349389521991411515699151077836939879098005119784599338094220357209282931947840649370214797799239141177150504376876449191751710064328887335062, 3368),
   (-206606068582671014238910407672940234263877832436561326625002025273080561467278434628742579252414381685618370693178980978497687564407683539929324720952321297006275939166979562313916222083293409554141148720534540082674810465124617336571213792655044755079402549818258475757471792321497266897093804130203871846792767062073804350180051816219809086101352817695237690176064960237286371577402863233554547121228045771287135443331, 3388),
   (887560941580038285449991444629260013884894825311251240516582737995672607682968415408299294912428355584144581259412121450374423548625186541168501657237258211750944053060503183981953812971128958879022422085320885126528313693136320363595840723222742902465422725716363453236502616577916066516563712329124237607975372360530028227757988493384268831589604323009881364564634408975530926152958580728053742359649129443252139114169, 3377),
   (-182298918975433120816766082121065430658498803609652969880140074820543301573141718041175792039546425326629384604608433500634192294299090326244380642579590580555121996483338130083424066876489031089727495429744283770603798038901352074192421947150855017517836063550880615592057303188633634559561376204344947441464605534243992875087622898232670318708244123855329155095045115142058700349262283788618103181322428148963780377579, 3386),
   (899436080694266638533298020884005207568899616361178790281769966473601082611290621477384402343568845272562263431716829932039822850992183264342724016831326504919015184520819951869587308113561105142058441543782782230065209816725745378268334303403324215950755817024074174189470792687607927608482792595163677224361639311440328590519494519116164779187681550569103751371703303099800275477067552149352666042383228996231767955577, 3391),
   (-303990075136910054745149033085505833689346442852222037825593637081409436739290052144875411391338842351538103245837370162282102689813975653414094726805626842415068691497378949606883393234915130791705139711774166260689113610773625844830828906362591999251173623871111243033937061404540373812717851303534773862908208534546579859112984016902431232036491926151592582572430336391151882410272180287326184717972762619883020570910, 3393),
   (254785600821061484002684103119887414186117119770749546665740115310877749864539507895978026670607011243232315305653095845055383168972571015999589586783117913321538794019927201024043262065282482470049922800736825680562402545151200585540030220579651757699195389230276841317070296459553454520946056148485535729285177318448089192475395158269187245625345224245914760578352069708380648852379331886550780309117309200785348945023, 3403),
   (-684483981422630138031839285902064081303509185768978857607367762042473254997793250457053286244328892794172481047241572163101623187703543099231915863729982265059510479164205564484746728859378161719834855920604255515695757682035140354141556708243523680085421827002263186378697719295424118357837157875949695388208476153275172317496535736153555534311237413618845821156850681837186858167752999757871903038846374642140563241712, 3425),
   (424568817281101487743211636581674121718525906182266744197394628583745236805101488128988725455367086458061162593801053741160177214848575755954119385315321441028904217098097502360420409129558115370942262685896384757071293517368051186535769506695835250240297162166490951448563397718702942120018027756981818682474562172877937524026995112346042894786675392011232484921144403368046657972546426652783226889202751678525899887393, 3407),
   (-276953602231205813149842635101379694199214457696344045609266142937302684337891966979234987221865895246730453521791286804301198345112639273137446723918167245786194587950391230207322969816325904117916362554649474472039070551221672181905758392890151641304357587437303286696652726731917725910714872250536787497521303524204036241600907786750875961048949199820029722897589367295862796239891303192889148076949293173296866673253, 3420),
   (444270429107904397032691491355058491549654825108255106445345039970436941399192684201045952635578668889027922855193668550445251135289016626978876946874967074649128244231333547708826151026446008395712851488464663478445875024245084283086587207056296667487022354559616550991369200538222959639868348767747077559634898119834574818049543795309180646797804771570279885152351864719406591516269821939090991978868483665523846419089, 3421),
   (-641333091900387499645166127610376399366174229393711374303414925898096965735488129532605575524362202825825592137222876628192134774938734602535924765715016380791664438003352171252935673464722611510208087367048161827126668621359624755369492311944498204094078492428412102652110096522448008247024503014725157130419233666089614387854661373574490045469773741831460716417742463063444681815143029126325477489345197976126293054638, 3428),
   (271016765479010090614915156127680987400964854859403977651936799737922542343584450103582169945652850037658176032823545319804682790180240098250648813190945574532754857645589012203564446653221078270775371557217197180639323718151321107450984793914455985658306550604963681527005646645734373081638135289085854398176836151405789687089450185514922240146778898887314882373334295663415990075346852320804539382194780515204302490500, 3427),
   (-110810020746675273731535783958878121426661835606700490549885972922933274324474232546255357111051213357564772745105001043641550171407044505117969187496363047225788570584005402414527726405144237805218372737349825285453552329559750642327561309435500512429177422289141691752754826133857336858641164099153569170862335368608895756883168342622255492570184140685385822895115694892389036563277260230243018845517557515342450164531, 3435),
   (855533256229019803443958137818158501169614706304499491087602754319985019814702831043366314321895188814412829680009019026118355232319138247406805905864279384843280946618467654690698975694107002039163034002070760474297722222488686823442910073095139206643064406463183329764143823801489136068661783741196998671311437008945178375324258308262676436844271792479525889301405878094017567540302605773558790449395863450495788808511, 3440),
   (-317779577143119564743259145914615151158359382370514245195613126347747877063727508026177171767959749005231965822173503444355223664172476662697620223482890405028665553707996563082618312674200996588964160188875694227389788349564169925921758882268963713021467172500345379609643559389777256356405985897682609406132839633371928423184034806956156771522699426811184755161255596500855580392437700920733462558921398265765185563166, 3447),
   (430393778825784116079648397440656309126858132010650697933474068085716170515494574464132230587324856205926734528701163581108035727453013904519459582049043616950802120339954779098419310043305987613236612981780276068603642491199185083435044560586728216710594360420628318398897167617180351049884807369692255405226465691567377693186147202153020514612396248072881687759372191040315340532166397326247116025004874714328778645046, 3467),
   (-305601844552953383119327852330404591641700868344029413064247128373678260490454236785305192669024417455359573699565056678921394817408608540992281781323796060039977037491278574640714897240568234184353487420671821713016167186766619437408282353453762387177130931110924842792593801440732251207418440491049502678747474907939045794974666444161942877008072140505229856549332360351345532271714968880805090910961071741567615806086, 3459),
   (147310227648005774507632346626112780126668978929685852202662219251261347573901527536819155407580234947695201272651487154794470458032597292114846184344152223488320673353936281071380264587155852799406552250366054086316353239614392091314141372704756045822905423164396946547115637920789777307458279657731875489116457678374098571632720365557000665924763541245570431250187309534975404203561119860906005403659451463714359673883, 3457),
   (-193371012010476163685197997787384981520154166823985116970133547545469889411326957771150073019565871470950997134336981034310866826212474363977787101431285040613955901769368837825963516672084871846948274080064327242477999128351688854562154539719532631306140158002009822986974585989430466875754356791164062933228308938248279343005906486273554884136140704823135667425239098681626306851833000499019770269949275120056079303659, 3467),
   (122271295444680196832271418833646939543799528655308660780290453766972546569923041391432883846985481492282371262647600319483453437355931851818224452231805021986820197392464693676869941113267302552750235223031978373235380398721468772230770731130547154497396885215389719435329367045240273026366003277455973877596779514747887399884171165654602665215581067980390139873194129816548096940827466285569161142114797196994579030394, 3467),
   (-225394279710394813373013219522278460860672808366725234193199216082426777092013010173001756861894038780624655658443280625078068008290836005233560872027753778346681375099480362430461117880825651637429453574943592315451875201057177503103054448395843902028741373979524592770433062536308801894403078850455210153967390580399043497385225854152553515945934991226855813040096523279859366775007412375576528116504408220141102508988, 3481),
   (716430844479839983240164563214808607264972556438344926056308867614389001453391652004972348598375312326128554048010963966043169274613621038650824540724708011962391276402685419928921362072479960149926454240915180198751260446291417651434817931320206717939447323652893091979941997863602068242954640635734298269439646969812505900889060478938811120959720512681214619308322875585410842584534782241931749042931133991641343040178, 3477),
   (-816448821878632164557930671336432496952963188554825845363889433587092853679439873152708961580187684165238686196139259462845676481880453236610715713440962043369538394549817819841884049848297551788784963150835974859829390886866340400921310357494511294121201432513255524353037768434208513184398960820507493586061269087815620595838959835546740234482304941675118284402785176912271615303930266530453554627024854410792125144183, 3494),
   (164752139640946284936287761452033402261134416872542511036509032924316294547131609257279860345966852304074721433239361527656638430400762781003315666406568561653936183863803105746845444891489820020029384077056361378284716421953968322446455591836017635312282449979271505089043084969665828774785076571574602200031744883341625013893442146560747022294930215603878448486847507796597316603157798580617741282867774589836330927302, 3490),
   (-272521139696809529944171500983894964996421267970748127387942461508082292125264594452148948369469112628142654496259852590914730510262932491291701509037850310159842718995561969295987284550009966884253231873693840769587214992040673750498007508273117889020596887972218030450929603017954822695748748231687086235093867104258996353521943052264199310332522879831628664408413980385615882119584106303234780089164476293746183683265, 3499),
   (309828036833289724025330503607195409111566753909131277911356024081734715479085753531379436151490481326177488032242411613775967174320164512364481130765030705404590706237183038141090386834077275950718041386036509908106527479130488360905891764401457644286743431985894467055312602416299845506139097034546925670041429425367040357267969636149004257629650485024410815416491462671820921098232824681331016236758980165424968275530, 3500),
   (-311844854232817062349103673228965733507413832507926457015932529832904792048401921672522312109599747289450032202071622375278444797317703688757607010452543554576982075404099905679149371603954431411705193781977458124480385344601521390859405583819118519285981694612720301591635219882355235037911965096620280340728173426672083320242681065966572893844188114531958663483484963949445089316920815693435076179938330754599286016819, 3508),
   (401761162013846158291865364385468653341739256901472122494717771178358801372142830518588075364214843161722639131585378758812651246785653856351081930036599498555201762438713855775555563038646469935024709507668709524936716045058142041204604663429270029559432097699954542996058179034297534318069096952885954935503409301126633976438877847051470342026175228442847912014538277652591952715017096008840776096782353686621269454174, 3512),
   (-293352512207792466572470836196270283807512257245204898907582811515211492881986057866995767110042834491167930623516543204692103189821127797529372343801643855493239759323131500109799556895134509108910841663949236465442242569041081758528619296932249482295256448578214722452706180176354777441715497450426250475975835092513318612174012708688833321513426179986959881077608547101436721441616567089251739336615170916101754672074, 3512),
   (546425283713313762290221141700971338223497786069915339130430524472552672516743246966384114096837600144650509685918206462193486856064425774032319444312354652615569057763180586705210084309585561974468574161649011253524446558129117952086640235631822377634550186917195078573206003963007655350176515560911573274104065445654303810422672158843041075407943510547470023009303933978915884141752025859760032225289728099800666880664, 3516),
   (-972925883194614777188484107500203238605888684417872895166501095245603545302612979108438515996989149999595140342759777651287785246645777957956706271966463074310045704811267469900837001699901374134321984871117232442233671268853881604488167137293461092158373073700395670187317081053541347810322359277016451140008858147608373115934714515882403365997660860793549850230004689851801947532093733364163204800133341693204188699298, 3540),
   (476944960865139482676653409123391990044405015039248541450409113443622354611389462185776207202113138834325734726834063889096295201821624792099121062291930597645700354838900697915355479297466790204172170849781350345265383220119305163808441124814323932965957771687290184839957808711809801765168524626522899558181307458457697368769387921953432819300679899042788763050703942909752106195378666081188505201411866088281680601819, 3526),
   (-176491999051142800754583984655855482912976620252464842273755802637979475656818019371642454732385652182931716833662444276889878122179248811344894283292020920278004286067199966289072235395290395774307652973018437293478978492167928485671739332547713477720801437116427689917430835117805771686669708941038928915655098323478781337494616525990920938736355192989001102614419725523636846848466167179900968466299048763871064905830, 3536),
   (358990349319869519896046207155575320611676025349781729028405820584627108894009451946079018651588475451041964955509416165955907328526317911838298954402260157892341742060680640764682636537746542674728014577106854613753180776732712173568113609436875647957447974856689002686419764235581320584328392022156304512001520983602377553467270048842836098636947049486484476611876885858189823325962534315822530164752352754415126459322, 3541),
   (-197523681554188620183930091810788651187302323178958106358939532327907588355514283666230276073272407314571460050902457980432049303526396870994488496761244966479499654993747221379149263068185049776175116828460645536154534235880997573514930074879689145769367880022568013456128625138310487244566875413513598783938286768535233749864369326802286504730390487258558464255032130576834571338792175219308269644168190121473910307320, 3542),
   (791323250292594674330854346542339962724735014950183376681855965601891697349696889958668245239795231613107384719793823299717724931330788868996080239163167088452784022267753328108363947148189808939490359282562192354872475335884444846202269336984637614149366067285049236029383087616336735683124098632231862117955885054051065598339004147343923538311087273093745703046436647267866484642060889189777330854999173214682496085131, 3550),
   (-675674037816816823145901785675740038563108545617236203836863045606452518384308400663355347364924156134715022261748672628027738334383725873079473439238813274056134441970736694169294133391977787858536988888596212474968091855227272170391353068421922836106222460434287486165790295087173204281549245184578787113773685264320895677857095536055560036987809009947761624069593591195426441137711228473095836657698225156863276210962, 3569),
   (333378212308515622435048704337584996257811715934009555438539735220988078560160213022130282235995741846434860674911756198399697982407637372968943760075594784126232797349994796839234420850715617910772050733963089351999985177085416444957396003749286993918837628689532782006441035140577973490399048818036589174037765835608957722500552724367991292952259420010916802634893132061787341894259016136647215550586557511873291157435, 3556),
   (-550428062446876633021804276586456450311390484086021524319426559222411690266109880891323805367377147324199992201141746324165770289828809505992156083201458551546159953514835692297571986244601383724906442107993627965624455436941178383451815202547902731372231790294228225970021427598838313695853961948207815002772830810081752940894307198650473370228877468623927039662223496429441684050112850833287071628615814575632963870602, 3566),
   (140322399065207598656165673152162701193665680211365714677690199507529786251713260192223366965921733244483785245266671754207223313023174373449107827900054426176213680244684173635204997445948722185304670753616733652595577322054747885476228104948990018978241901014170903999376482916758319996093517332252871330260949869713827985600740122595768649150695788958826519344284606923820894420382149039344976452016747292788357171622, 3572),
   (-595441059527166420798644791381068184225261588258941628516144943483699155918727136021171956083015866926112040553715758898040169592889362841630829340729226855248537074102934300643546112213787412531582850044966800147924054906568783436961598223989223643547830697180914909996494524559075013668723919345721446857866728840170622537916086520885708982840487791466672513667991324600974992307665648242375208270819387489060215105682, 3578),
   (273666906047180507272602316997461126868200794351661570936534282631581254257695714343866416914929623129102866451323253527243894750698700393037745358221761169086247706374762769394884213952684628268766786150334113348296068367312201549966544835066366393178234987506833612176660195656665911952574708926889485796024646050303576276458698287591379457800745958110542566558235105440663239442693007746688428458613858285774480434166, 3576),
   (-529010451218760858681931975710756616779580416881751599834743681186216696602082257762300442894522498523923392029244991286453080584212584099786882512554507583777712822085703038291640413641676086033752151943460514167338093154090831050232799521430038801268546934068832823969613146655327541112728554860980740167521717684465461255193677650038509472733164678170932577001652345679810154366167388086443913945332678560003083646061, 3595),
   (251035020453420035178356729715515468856893024318828663789900126617232948262039078387859795899255545058110533109994349460853984479317420309234941005728056672777423153591584897755902998274225112476301604041965722763094497356402556557295763938078422821424552160094699503381077414344379028722954541114324112193614876093824411975599090275502085561898571215520490804988928579105999431187955345661123085902617985953397369378837, 3586),
   (-235023517797109830535215224576909564802103619176026623510937803425449489044389781426369717360183120202439011672520214971767557597058484561248432102038019285073402337364071229690729502418349680859108023375046844938539195143123349426875929333658503052086196929832751025078402261161768712111185511180165219304073156995970886702956558041900480438284315355059762092689172870249191137075323449271522456847741423223831300885498, 3595),
   (168966736262784668283009999511673294492255819901751799762455174254948612838236498066980003298854676841476586241224004205807648072504052688349842790378844496945827131978196161549833639321153839879756089629384593190856649077245629388199317202575625854732231269711758257748481788206199774213315868236898067989201325826907555014302245692667079459095612054728554152039676537906595836943444760261078396129810174051293757813323, 3609),
   (-185997466294967914951588901062841320768453747286344415555907317629438421765839925681928073056154506275688373100981238586481437774176565045429118355177601338199993523539939946513899182018456247328408715290404518205387308254177710849364953738088228596792596083027141452345313526096835540978058836348671103389859082348883721222979937972310135172178886846339759731772349597621052643164001796198936029770141013721174488967139, 3606),
   (216501347984166443448009766724240374610557397910525290878323564175474488303958143817155784856705590881019600297752398044588199983515359518217658421513898821876176637032441006116607307221148928365230956544876768551381440358420687478371602366148978284234805106770499832547189209387164426916942212751739276947370273398098493456171789170007829641209113233085599060408515059789763918294585320828470879032535890484954070016256, 3606),
   (-623076050122740093289890886179173819350237282705264682396481191541758155692724539531132844545432820767970470982625447477272193934705296162651722954965209075825398286112250685825533070685511119887341194199232885591831434675117354967569293356701834068577905258193056368524080606531269051925303805247891998819816109863585010005824082116251193403997989091031982689849751892182445073700998798443629272075104215394433174630209, 3616),
   (837994413832331667776964169218790968084226489666054240991814507665399856795696609011859455764851909698489277463297371252736233673350114033137051953465892349337599469225523152918764795669971863301295017095740247396660945823582257618601961039594495001624166137092986921317831598224818961865754621465108742377771256813291208238678321790247613107791565375800791670594639667171705622251271109172374549986162092097267480110793, 3619),
   (-249831938772735124993356984187230216704546450126885306993217659368685071208815691894321284030677807165138406218277535476039950677487044564769056120309302995212817824692380235501677880871401170937374632703457639941499781068161568761443152476825924727304193538372841593225369147036797954497468020733071924360092926364253617815604177661033676727633113961717201464526293020525010213739731768704789776835244724828295403337157, 3635),
   (256601699356047169586129930544208421100002392655373170697969637093727848495554457339674951455668481134255625285227759086534192034783469478914466920352477641322555181130654096762184632863035014783408548448422912135944088659883447520432273506256877271155175261519561124012578228675110293604039419292975393843651506231572018513215047540773314845169901147384925753818230756096831990495841523521934633018150492631729409703534, 3628),
   (-926047909579766817807481739989573828336736568880293525375929120353815364849451500143235210224460031656844666335798204536785655531351123718104099551033969811431963568138239030470141709658041686323895989303362499567436844950955932955926533678967054705584721617878550089377065274845302059356002273647233970252144598612758410306641965550809285435254900144099211212288212358891356034519413328320177718110577962294000635490984, 3634),
   (184372551155484405161565704678973787876305136836373157236066261868828157434022491565119652229072524491790657958071151466552685311369914586181951786792111978467676778138898955134723278453906791977659254559120394079071896690733943576031139050882559655269310330819143058909809736156331690210958063467103179267931306157666395217775119147296245445336212990807112339879654962751460564852530935004142942790762055538125051191263, 3636),
   (-116065833023516421150885511684382613440920992387792295008018976561600301135065971701488979641351655979716166621640369470317488103783517280947062781926927204053893099430828305360869138150656794685369792286041058723807623845654802294586221731561537030233181557270583659914071369863988684278283050087570189390711002874303540651793081626331873104587341387525613016583287609232691922235043030243104387459153802458541735367083, 3647),
   (195393842286348833700214232553636254386218458413805746526117756383262023277369288608536199349455698858464541986053338421714477291073283382917538907926600765283348898892140701947519952950868465485620233341008677398854666979625629441465149296930730275074355911561066182049776842164829554694359529882491122373295200525725026178005111905752932462239423609885127320607087832362985229801257556878498733847972879783967777668482, 3647),
   (-101789056145627349913467244477652192723638534656530831545663035029106342066545972805236080426345557311764923875964661241167416768705099796530612816989864630581316818005125586893062603579585066554435125597244830143400377274563317126265551138945845176163971168742985595779986085879953223345827683589248483355678738688468141833301525846196355251555253349904388118451337010874777037592145699590039145445613822765070390795204, 3657),
   (968511604418272718716988535382674828115379088322434956974983609871570339892398382977380155619816035022434570436089394086236170320221796652745308393751423292188655939566566490614115120228095718279144671634327196865208768780906813909067232395040694006590551580249010275003260273453220953773062583450654409485581749065230478246565123389333750456388720556668325372691819684488818661042189102521197123247186281449367523210372, 3663),
   (-451966931400568026531425738872474594828564954678496555303318924541255052433921361237319348704887177731059026121572242822692649802554059822955128348864798579832796113148725157785976800011583556782182129264327534234674254688870779416814041600657757644225496705983546522396505167628453639803762492548946571611864138877747779421550805120435019954633179344984463143630388792064831665690285696847473712762278456237467945997035, 3663),
   (157136710889719980299502673424118199866966987714102472555509697401240567709474992369550157336911022227183731519190272230351536385251386245283112713776816377884595177090263838361463985772385198261529126443771315254929023522297347535250861710401835770566195961086333359789670157587715664525954679663713304375848625975427069916868151129509063675546654993519301030867072107389313046553690992791846704760038513113091996426605, 3671),
   (-533045270348899666072222733040558724891017167301207804284537273758074841554986119867154665718067033363394298564100439536977281907107262627068327607609533326934304954254886450932406283075257398350552005310434128565431814388160885575429906143622657743784850174119047307778569826665042384417620872897343435929727007343828270629266290491339703798517120085589114964395069436454548053064699235282050057912333910682145073340962, 3699),
   (166768354283766407157780241248869600449711957027566942127617611340965958162788063101555783278049369886329776650764357760933088663230555343602673304309240594734592871392255092740543466240843474771005125169474817199284644934769034564259749601180281200280259690869753288409556067483109585143261990641534326357904288109177401823835550545802066881216341210403544410028119311615852230548142842223899445211636755094835510720724, 3676),
   (-141265858809761722402887832684261256419701416534141177225121858892865443690080211814142675487388461538323232484472969257184958701839237124078981110798029319647586515894396288778610457608598311347514609952542646452135406351027354336958395516396154789153274409662566845394014852237886462816893311173612938888501348807872880455146476082941437801083996407457768002069877643280491834043722123194685512762075124342473548913183, 3683),
   (230831043052467496691014854915949553349416956117798635758474316035411176528496079078137727886261623505956325564482454131134744402219429366286134997446862092568052485846782793809373030014304078314897911134019611996937973790303653956191972950192783090357427815860534643000933970164413064343440101117843611894743936927411948676931475334415182876281357647956702085629265340850099108006164326971695664167545341189838945928783, 3690),
   (-240780227013238429586114040762423786277355892206044259826577373636039298155271887466406419967196706325600102454823464055001713820307356036540568579853589413176298330223110403293802707650334858419777889963734795140735220166777572814922748389709517516070906732564804336440424742187059867335652137980448785061725165136942059073141431356260673238250478822173376182619532281165901768299270301173554740992178314534958819298249, 3693),
   (183135958292518944976050353046758846991155031438727757967687499658866784350296206118128796070376280335216793699541731149754454597701471779461196297436353523047146625879798400817501708498254264631240131701209263463475360721666184469247712485682184470185034391445780723082892514607780860621834551211091337778520224415135461063954721982971418653517645664866997895238574205104493778503927250181278048500348381642053566410033, 3697),
   (-126012221525137320254594974962042178821718629343069673445654339314226379378087732887631163172805622844678887535835468245360434924020749677556338367684490032893221628129552217273683372105018129615545575977254715967658283862775687376130726991484278881052956950105647880101464562042724002160207173909448985461245656008848107223913201031199557145589590483242535699287951710899194524775713147937355643924582104705160713779062, 3715),
   (168366046277293510160342901486363169036787362894517752360224123957480947921417069474687295331499975443724767279024361048320444538132729374513899577113561517627809633529266868671602262503916947986948764848763838409298567492440572674475246208577088968807993666536891115325072495953345253685569312626528193117842094331835726350239415862303957333977649700603174716229648801236454405569811711946263742795390508261713952891507, 3706),
   (-169568931272925207155772574587610330605077010951553066110351715641210903751933784262031962035113588265436720502927647464090420542614773456995618341277159325723037774295338456989336451452485830879332532700511515176405691012581780241328721378273148471205139419119175906224491943316277319925062092287213777361178234301798489953779576512727736069099368057853843273440160552559509884740927423442849575432910738203596304789237, 3715),
   (101760990122217025021692371351639940302966816271519413391281051991857725210069968347926442318594293241214858467389797652876383403280621176741851335016885034267357570143706854964966202542900566804684361895658532643997434084812645024300078295728826127796950258876403450421369933528986668554864066000671317142651397500966789260900652360900445887364229863105850010795427837909167597238092580264624583212354983845999720768830, 3724),
   (-677376326297874057369679631362112660056154890974788550694775510090389049928452299408533299387744421061371314052275747115330231914708791903298960183862485265631534861034316002345415332179355039790329149863548205611883201336776864744093196944677499366008620742551284687442407119219388398253304271863090782651072694235662135615603474370631822758746759888053556760990790046131680518473347422412618821407256753772350238557958, 3732)]

set_option maxHeartbeats 4000000 in
set_option maxRecDepth 20000 in
/-- Denominators of the Bernoulli numbers of even index (A002445.cpp 21-6021). -/
def a2445 : List (Int × Nat) :=
  [(1, 0),
   (6, 0),
   (30, 0),
   (42, 0),
   (30, 0),
   (66, 0),
   (2730, 0),
   (6, 0),
   (510, 0),
   (798, 0),
   (330, 0),
   (138, 0),
   (2730, 0),
   (6, 0),
   (870, 0),
   (14322, 0),
   (510, 0),
   (6, 0),
   (1919190, 0),
   (6, 0),
   (13530, 0),
   (1806, 0),
   (690, 0),
   (282, 0),
   (46410, 0),
   (66, 0),
   (1590, 0),
   (798, 0),
   (870, 0),
   (354, 0),
   (56786730, 0),
   (6, 0),
   (510, 0),
   (64722, 0),
   (30, 0),
   (4686, 0),
   (140100870, 0),
   (6, 0),
   (30, 0),
   (3318, 0),
   (230010, 0),
   (498, 0),
   (3404310, 0),
   (6, 0),
   (61410, 0),
   (272118, 0),
   (1410, 0),
   (6, 0),
   (4501770, 0),
   (6, 0),
   (33330, 0),
   (4326, 0),
   (1590, 0),
   (642, 0),
   (209191710, 0),
   (1518, 0),
   (1671270, 0),
   (42, 0),
   (1770, 0),
   (6, 0),
   (2328255930, 0),
   (6, 0),
   (30, 0),
   (4357878, 0),
   (510, 0),
   (8646, 0),
   (4206930, 0),
   (6, 0),
   (4110, 0),
   (274386, 0),
   (679470, 0),
   (6, 0),
   (2381714790, 0),
   (6, 0),
   (4470, 0),
   (2162622, 0),
   (30, 0),
   (138, 0),
   (1794590070, 0),
   (6, 0),
   (230010, 0),
   (130074, 0),
   (2490, 0),
   (1002, 0),
   (3404310, 0),
   (66, 0),
   (5190, 0),
   (2478, 0),
   (1043970, 0),
   (1074, 0),
   (7225713885390, 0),
   (6, 0),
   (1410, 0),
   (42, 0),
   (30, 0),
   (12606, 0),
   (868841610, 0),
   (6, 0),
   (171390, 0),
   (244713882, 0),
   (1366530, 0),
   (6, 0),
   (281190, 0),
   (6, 0),
   (27030, 0),
   (9225988926, 0),
   (3210, 0),
   (6, 0),
   (15270994830, 0),
   (6, 0),
   (7590, 0),
   (9366, 0),
   (1671270, 0),
   (1362, 0),
   (625170, 0),
   (3102, 0),
   (412410, 0),
   (63042, 0),
   (30, 0),
   (1434, 0),
   (9538864545210, 0),
   (138, 0),
   (30, 0),
   (3486, 0),
   (30, 0),
   (16566, 0),
   (303940201110, 0),
   (6, 0),
   (131070, 0),
   (42, 0),
   (2291190, 0),
   (1578, 0),
   (374416770, 0),
   (6, 0),
   (8070, 0),
   (73743978, 0),
   (69870, 0),
   (6, 0),
   (4940319930, 0),
   (6, 0),
   (7828173870, 0),
   (11886, 0),
   (30, 0),
   (138, 0),
   (231026334630, 0),
   (3894, 0),
   (8790, 0),
   (1806, 0),
   (4470, 0),
   (6, 0),
   (866054419230, 0),
   (6, 0),
   (510, 0),
   (25233558, 0),
   (20010, 0),
   (20526, 0),
   (561706691910, 0),
   (6, 0),
   (9510, 0),
   (4494, 0),
   (230010, 0),
   (282, 0),
   (34098248730, 0),
   (6, 0),
   (2490, 0),
   (7305236862, 0),
   (5010, 0),
   (6, 0),
   (2203871994870, 0),
   (6, 0),
   (330, 0),
   (798, 0),
   (5190, 0),
   (2082, 0),
   (56213430, 0),
   (4686, 0),
   (368521410, 0),
   (42, 0),
   (5370, 0),
   (2154, 0),
   (21626561658972270, 0),
   (6, 0),
   (46110, 0),
   (15414, 0),
   (23970, 0),
   (66, 0),
   (1018290, 0),
   (138, 0),
   (30, 0),
   (1651635762, 0),
   (63030, 0),
   (2298, 0),
   (868841610, 0),
   (6, 0),
   (11670, 0),
   (148218378, 0),
   (171390, 0),
   (6, 0),
   (233649143825370, 0),
   (6, 0),
   (9315635010, 0),
   (42, 0),
   (30, 0),
   (354, 0),
   (15755919270, 0),
   (5478, 0),
   (30, 0),
   (5213334, 0),
   (27030, 0),
   (57822, 0),
   (446617991732222310, 0),
   (6, 0),
   (3210, 0),
   (42, 0),
   (30, 0),
   (28446, 0),
   (112409792943630, 0),
   (6, 0),
   (30, 0),
   (18438, 0),
   (27695910, 0),
   (2658, 0),
   (90709710, 0),
   (6, 0),
   (750400230, 0),
   (41089818, 0),
   (6810, 0),
   (6, 0),
   (285702690, 0),
   (6, 0),
   (7150110, 0),
   (1288550298, 0),
   (7010970, 0),
   (2802, 0),
   (1261596819210, 0),
   (66, 0),
   (30, 0),
   (42, 0),
   (207930, 0),
   (2874, 0),
   (925269860885370, 0),
   (6, 0),
   (690, 0),
   (63346038, 0),
   (30, 0),
   (2300826, 0),
   (226590, 0),
   (6, 0),
   (510, 0),
   (3499986, 0),
   (8365830, 0),
   (3018, 0),
   (22187634681030, 0),
   (6486, 0),
   (15270, 0),
   (1475166, 0),
   (131070, 0),
   (6, 0),
   (472290, 0),
   (6, 0),
   (48942109590, 0),
   (24623886, 0),
   (7890, 0),
   (6, 0),
   (6365085090, 0),
   (7062, 0),
   (870, 0),
   (7518, 0),
   (8070, 0),
   (6, 0),
   (115471236091149548610, 0),
   (6, 0),
   (69870, 0),
   (78042678, 0),
   (30, 0),
   (1518, 0),
   (4940319930, 0),
   (6, 0),
   (16710, 0),
   (798, 0),
   (15037922004270, 0),
   (3378, 0),
   (772590, 0),
   (6, 0),
   (17070, 0),
   (1561971642, 0),
   (36570, 0),
   (498, 0),
   (25727323650731430, 0),
   (6, 0),
   (19470, 0),
   (42, 0),
   (8790, 0),
   (3522, 0),
   (670649070, 0),
   (66, 0),
   (45062070, 0),
   (244713882, 0),
   (30, 0),
   (168918, 0),
   (21340446944246430, 0),
   (6, 0),
   (30, 0),
   (25494, 0),
   (510, 0),
   (66, 0),
   (37200951384870, 0),
   (6, 0),
   (1098809130, 0),
   (25998, 0),
   (102630, 0),
   (6, 0),
   (9549013762470, 0),
   (6, 0),
   (30, 0),
   (14047518416694378, 0),
   (9510, 0),
   (6, 0),
   (292110, 0),
   (8142, 0),
   (147436410, 0),
   (27006, 0),
   (40890, 0),
   (3882, 0),
   (2489172157290, 0),
   (8646, 0),
   (19590, 0),
   (42, 0),
   (42330, 0),
   (3954, 0),
   (19146039608325630, 0),
   (6, 0),
   (5010, 0),
   (177954, 0),
   (30, 0),
   (66, 0),
   (143870967697108470, 0),
   (6, 0),
   (1076430, 0),
   (9534, 0),
   (1853610, 0),
   (94254, 0),
   (439494510, 0),
   (6, 0),
   (88230, 0),
   (64653847566, 0),
   (10410, 0),
   (6, 0),
   (13097729190, 0),
   (6, 0),
   (48107155470, 0),
   (63042, 0),
   (368521410, 0),
   (6, 0),
   (1935570, 0),
   (66, 0),
   (5370, 0),
   (44458302, 0),
   (10770, 0),
   (4314, 0),
   (88604023116809390190, 0),
   (6, 0),
   (30, 0),
   (47052894, 0),
   (46110, 0),
   (66, 0),
   (734400030, 0),
   (6, 0),
   (23970, 0),
   (48946926, 0),
   (49170, 0),
   (477006, 0),
   (1018290, 0),
   (6, 0),
   (690, 0),
   (407656409622, 0),
   (510, 0),
   (354, 0),
   (9504947751577793970, 0),
   (6, 0),
   (1966599030, 0),
   (42, 0),
   (11490, 0),
   (6, 0),
   (171711773909130, 0),
   (107778, 0),
   (23190, 0),
   (798, 0),
   (11670, 0),
   (6, 0),
   (4890134114035170, 0),
   (282, 0),
   (329240190, 0),
   (8693202, 0),
   (30, 0),
   (66, 0),
   (1518018487433428890, 0),
   (6, 0),
   (23910, 0),
   (1806, 0),
   (9315635010, 0),
   (6, 0),
   (734370, 0),
   (6, 0),
   (24270, 0),
   (9748437683754, 0),
   (51330, 0),
   (138, 0),
   (267850627590, 0),
   (6, 0),
   (22487190, 0),
   (34566, 0),
   (30, 0),
   (4962, 0),
   (2879154231044910, 0),
   (11022, 0),
   (27030, 0),
   (42, 0),
   (289110, 0),
   (5034, 0),
   (5145485882746933233510, 0),
   (6, 0),
   (30, 0),
   (225834, 0),
   (54570, 0),
   (66, 0),
   (2328690, 0),
   (6, 0),
   (25710, 0),
   (4392099642, 0),
   (24605790, 0),
   (5178, 0),
   (10903749915532110, 0),
   (6, 0),
   (870, 0),
   (844998, 0),
   (30, 0),
   (282, 0),
   (307960049670, 0),
   (6, 0),
   (414801644070, 0),
   (3848006274, 0),
   (704370, 0),
   (5322, 0),
   (90709710, 0),
   (11814, 0),
   (30, 0),
   (42, 0),
   (750400230, 0),
   (6, 0),
   (110199362466082890, 0),
   (11454, 0),
   (6810, 0),
   (38094, 0),
   (30, 0),
   (559231926, 0),
   (4856945730, 0),
   (6, 0),
   (30, 0),
   (23189639802, 0),
   (293154510, 0),
   (6, 0),
   (2428917311730, 0),
   (6, 0),
   (6513191130, 0),
   (4454142, 0),
   (14010, 0),
   (6, 0),
   (27010173501635144730, 0),
   (6, 0),
   (310530, 0),
   (42, 0),
   (510, 0),
   (130686, 0),
   (865410, 0),
   (12606, 0),
   (27147548730, 0),
   (85386, 0),
   (14370, 0),
   (6, 0),
   (178577083150876410, 0),
   (6, 0),
   (30, 0),
   (11409244266, 0),
   (61410, 0),
   (64086, 0),
   (16605847131510, 0),
   (6, 0),
   (498270, 0),
   (42, 0),
   (65723094690, 0),
   (5898, 0),
   (226590, 0),
   (354, 0),
   (1590, 0),
   (27372510670045002, 0),
   (510, 0),
   (6, 0),
   (226816592730, 0),
   (6, 0),
   (342999030, 0),
   (42, 0),
   (15090, 0),
   (6, 0),
   (14493038256293268734790, 0),
   (66, 0),
   (32851590, 0),
   (3318, 0),
   (15270, 0),
   (6114, 0),
   (5971862886990, 0),
   (6, 0),
   (131070, 0),
   (798, 0),
   (30, 0),
   (68046, 0),
   (487875570, 0),
   (138, 0),
   (129630, 0),
   (15142386, 0),
   (832015863030, 0),
   (6, 0),
   (20667935594670, 0),
   (6, 0),
   (8276610, 0),
   (1464173668545126, 0),
   (30, 0),
   (6, 0),
   (217946878566690, 0),
   (282, 0),
   (37463910, 0),
   (848274, 0),
   (870, 0),
   (498, 0),
   (522388230, 0),
   (66, 0),
   (137190, 0),
   (15078, 0),
   (30, 0),
   (138, 0),
   (345605409620810598989730, 0),
   (6, 0),
   (30, 0),
   (45654, 0),
   (69870, 0),
   (72006, 0),
   (1337947899596989590, 0),
   (6, 0),
   (32910, 0),
   (292866, 0),
   (766590, 0),
   (390462, 0),
   (83985438810, 0),
   (6, 0),
   (33270, 0),
   (3193806, 0),
   (16710, 0),
   (6, 0),
   (799613240790, 0),
   (6, 0),
   (15037922004270, 0),
   (7486329018, 0),
   (16890, 0),
   (6, 0),
   (872254110, 0),
   (14982, 0),
   (30, 0),
   (269216629206, 0),
   (290190, 0),
   (6, 0),
   (1418246821361370, 0),
   (6, 0),
   (3254730, 0),
   (16086, 0),
   (72210, 0),
   (3570402, 0),
   (29663604169293338790, 0),
   (6, 0),
   (30, 0),
   (42, 0),
   (185996910, 0),
   (1165326, 0),
   (1061970, 0),
   (14766, 0),
   (149430, 0),
   (3297710692122, 0),
   (17610, 0),
   (6, 0),
   (670649070, 0),
   (6, 0),
   (389730, 0),
   (42, 0),
   (45062070, 0),
   (7122, 0),
   (25467756676965330, 0),
   (1119954, 0),
   (35790, 0),
   (42, 0),
   (44763270, 0),
   (6, 0),
   (42107247672297314156359710, 0),
   (6, 0),
   (150510, 0),
   (798, 0),
   (30, 0),
   (1518, 0),
   (2010074430, 0),
   (6, 0),
   (620670, 0),
   (106554, 0),
   (330, 0),
   (7338, 0),
   (152167106353234711830, 0),
   (6, 0),
   (36870, 0),
   (1463321706, 0),
   (2110812338730, 0),
   (6, 0),
   (2090369190, 0),
   (6, 0),
   (4207830, 0),
   (5213334, 0),
   (30, 0),
   (1074, 0),
   (1156891664364527910, 0),
   (16566, 0),
   (30, 0),
   (27118518, 0),
   (30, 0),
   (7554, 0),
   (4554106624556364764691012210, 0),
   (6, 0),
   (161670, 0),
   (42, 0),
   (30, 0),
   (66, 0),
   (292110, 0),
   (6, 0),
   (51986670, 0),
   (1020642, 0),
   (37891157370, 0),
   (7698, 0),
   (1755390, 0),
   (6, 0),
   (52707210, 0),
   (7969061562, 0),
   (19410, 0),
   (6, 0),
   (23764666736005761930, 0),
   (138, 0),
   (301064657190, 0),
   (2353218, 0),
   (19590, 0),
   (7842, 0),
   (2730, 0),
   (17358, 0),
   (42330, 0),
   (350322, 0),
   (573330, 0),
   (7914, 0),
   (92290209959160675732270, 0),
   (6, 0),
   (30, 0),
   (200903848194, 0),
   (85170, 0),
   (895026, 0),
   (63768926130, 0),
   (16638, 0),
   (30, 0),
   (42, 0),
   (88770, 0),
   (138, 0),
   (12467426447728328684790, 0),
   (6, 0),
   (30, 0),
   (11135340678, 0),
   (1076430, 0),
   (6, 0),
   (619710, 0),
   (6, 0),
   (42886974570, 0),
   (42, 0),
   (471270, 0),
   (8202, 0),
   (14661976348110, 0),
   (66, 0),
   (235318470, 0),
   (42, 0),
   (88230, 0),
   (642, 0),
   (45207650798257176058830, 0),
   (6, 0),
   (10410, 0),
   (618745101945726, 0),
   (30, 0),
   (66, 0),
   (222661396230, 0),
   (498, 0),
   (30, 0),
   (27439986, 0),
   (554242538169870, 0),
   (6, 0),
   (137514053293890, 0),
   (6, 0),
   (519246666690, 0),
   (4053126, 0),
   (30, 0),
   (6, 0),
   (1935570, 0),
   (6, 0),
   (330, 0),
   (1135554, 0),
   (91290, 0),
   (402414, 0),
   (119755772056830, 0),
   (198858, 0),
   (15433410, 0),
   (20118, 0),
   (21570, 0),
   (8634, 0),
   (8594590242330510848430, 0),
   (6, 0),
   (30, 0),
   (60774, 0),
   (30, 0),
   (5650194, 0),
   (4443910573830, 0),
   (6, 0),
   (88577310, 0),
   (92421869442, 0),
   (96690, 0),
   (6, 0),
   (734400030, 0),
   (6, 0),
   (30, 0),
   (6663571987681686, 0),
   (23970, 0),
   (138, 0),
   (117717357030, 0),
   (6, 0),
   (2985651570, 0),
   (4920594, 0),
   (69165870, 0),
   (8922, 0),
   (25775974770, 0),
   (66, 0),
   (44790, 0),
   (66499734, 0),
   (8413170, 0),
   (8994, 0),
   (163252124079274230, 0),
   (6, 0),
   (510, 0),
   (21126, 0),
   (93810, 0),
   (99726, 0),
   (693861185865178959810, 0),
   (6, 0),
   (30, 0),
   (422828826, 0),
   (33432183510, 0),
   (9138, 0),
   (1389570, 0),
   (6, 0),
   (11490, 0),
   (13173708858618, 0),
   (30, 0),
   (6, 0),
   (171711773909130, 0),
   (6, 0),
   (15627810, 0),
   (64806, 0),
   (23190, 0),
   (6, 0),
   (514298778630, 0),
   (20526, 0),
   (308099670, 0),
   (402738, 0),
   (30, 0),
   (776382, 0),
   (32695402455500348373810, 0),
   (138, 0),
   (1410, 0),
   (38585629362, 0),
   (329240190, 0),
   (103686, 0),
   (565058130, 0),
   (6, 0),
   (30, 0),
   (66318, 0),
   (104610, 0),
   (2156046, 0),
   (25806314286368291130, 0),
   (6, 0),
   (30, 0),
   (1532454, 0),
   (23910, 0),
   (6, 0),
   (1245000423030, 0),
   (6, 0),
   (14914331651010, 0),
   (142842, 0),
   (30, 0),
   (221766, 0),
   (1181601330, 0),
   (220242, 0),
   (2564670, 0),
   (42, 0),
   (412590, 0),
   (9714, 0),
   (24743736851520275624910204330, 0),
   (6, 0),
   (11959890, 0),
   (68334, 0),
   (102810, 0),
   (66, 0),
   (25981510876230, 0),
   (6, 0),
   (49110, 0),
   (188316982014, 0),
   (921974790, 0),
   (6, 0),
   (2246790, 0),
   (6, 0),
   (510, 0),
   (1103090766162, 0),
   (719490, 0),
   (6, 0),
   (348265374941423358510, 0),
   (6, 0),
   (55110, 0),
   (69846, 0),
   (27030, 0),
   (2390478, 0),
   (2537898090, 0),
   (66, 0),
   (25730790, 0),
   (798, 0),
   (25170, 0),
   (6, 0),
   (802787680649929796414310788070, 0),
   (354, 0),
   (30, 0),
   (23646, 0),
   (30, 0),
   (8646, 0),
   (919520393610, 0),
   (138, 0),
   (92605290, 0),
   (71358, 0),
   (33330, 0),
   (282, 0),
   (1325024610, 0),
   (6, 0),
   (1486830, 0),
   (29677461198, 0),
   (437070, 0),
   (6, 0),
   (2375532972870330, 0),
   (6, 0),
   (1736209148190, 0),
   (258274254, 0),
   (25890, 0),
   (6, 0),
   (1214252494343571301710, 0),
   (22902, 0),
   (51990, 0),
   (4326, 0),
   (870, 0),
   (138, 0),
   (2035743565485630, 0),
   (6, 0),
   (510, 0),
   (1394106, 0),
   (1410, 0),
   (1176186, 0),
   (539853967071510, 0),
   (6, 0),
   (30, 0),
   (43366386, 0),
   (146424980356710, 0),
   (6, 0),
   (52870701923285610, 0),
   (6, 0),
   (96498690, 0),
   (14322, 0),
   (26610, 0),
   (6, 0),
   (1624968030228270, 0),
   (6, 0),
   (59070, 0),
   (71120950811778, 0),
   (30, 0),
   (10722, 0),
   (4883970, 0),
   (23694, 0),
   (192852859110, 0),
   (12984219906, 0),
   (30, 0),
   (354, 0),
   (357004741097023204553137770, 0),
   (642, 0),
   (57270, 0),
   (1806, 0),
   (115770, 0),
   (119526, 0),
   (2476110, 0),
   (6, 0),
   (30, 0),
   (484386, 0),
   (4297697351310, 0),
   (10938, 0),
   (471123735810, 0),
   (23046, 0),
   (30, 0),
   (9624054594, 0),
   (30, 0),
   (1578, 0),
   (3726456501173812770, 0),
   (6, 0),
   (4983626670, 0),
   (42, 0),
   (30, 0),
   (11082, 0),
   (133379136339029490, 0),
   (66, 0),
   (30, 0),
   (493962, 0),
   (6513191130, 0),
   (6, 0),
   (12259209165793590, 0),
   (6, 0),
   (14010, 0),
   (78414, 0),
   (30, 0),
   (2840178, 0),
   (860030934465564643347930, 0),
   (6, 0),
   (439274310, 0),
   (78918, 0),
   (12731730, 0),
   (6, 0),
   (2730, 0),
   (23406, 0),
   (963390, 0),
   (1442806569060262870002, 0),
   (113043390, 0),
   (6, 0),
   (865410, 0),
   (6, 0),
   (12101823030, 0),
   (42, 0),
   (52150441110330, 0),
   (11442, 0),
   (205353330, 0),
   (25278, 0),
   (27489810, 0),
   (3818598, 0),
   (30, 0),
   (6, 0),
   (114467910299711778810, 0),
   (6, 0),
   (236910, 0),
   (513114, 0),
   (30, 0),
   (127446, 0),
   (11515421944774011810, 0),
   (6, 0),
   (1043970, 0),
   (2798922, 0),
   (124647270, 0),
   (6, 0),
   (1212226840600230, 0),
   (6, 0),
   (58470, 0),
   (43665282377178, 0),
   (498270, 0),
   (6, 0),
   (1782690, 0),
   (24702, 0),
   (757195773923490, 0),
   (798, 0),
   (29490, 0),
   (6, 0),
   (3852030, 0),
   (66, 0),
   (3492210, 0),
   (336813582, 0),
   (1590, 0),
   (558078, 0),
   (190734866876644507968532551570, 0),
   (6, 0),
   (510, 0),
   (83454, 0),
   (870, 0),
   (66, 0),
   (452045469310890, 0),
   (6, 0),
   (59910, 0),
   (355730046, 0),
   (2338224387510, 0)]

/-- Row 0 of Pascal's triangle (A007318.cpp). -/
def row0 : List Nat := [1]

/-- Row 1 of Pascal's triangle (A007318.cpp). -/
def row1 : List Nat := [1, 1]

/-- Row 2 of Pascal's triangle (A007318.cpp). -/
def row2 : List Nat := [1, 2, 1]

/-- Row 3 of Pascal's triangle (A007318.cpp). -/
def row3 : List Nat := [1, 3, 3, 1]

/-- Row 4 of Pascal's triangle (A007318.cpp). -/
def row4 : List Nat := [1, 4, 6, 4, 1]

/-- Row 5 of Pascal's triangle (A007318.cpp). -/
def row5 : List Nat := [1, 5, 10, 10, 5, 1]

/-- Row 6 of Pascal's triangle (A007318.cpp). -/
def row6 : List Nat := [1, 6, 15, 20, 15, 6, 1]

/-- Row 7 of Pascal's triangle (A007318.cpp). -/
def row7 : List Nat := [1, 7, 21, 35, 35, 21, 7, 1]

/-- Row 8 of Pascal's triangle (A007318.cpp). -/
def row8 : List Nat := [1, 8, 28, 56, 70, 56, 28, 8, 1]

/-- Row 9 of Pascal's triangle (A007318.cpp). -/
def row9 : List Nat := [1, 9, 36, 84, 126, 126, 84, 36, 9, 1]

/-- Row 10 of Pascal's triangle (A007318.cpp). -/
def row10 : List Nat := [1, 10, 45, 120, 210, 252, 210, 120, 45, 10, 1]

/-- Row 11 of Pascal's triangle (A007318.cpp). -/
def row11 : List Nat := [1, 11, 55, 165, 330, 462, 462, 330, 165, 55, 11, 1]

/-- Row 12 of Pascal's triangle (A007318.cpp). -/
def row12 : List Nat := [1, 12, 66, 220, 495, 792, 924, 792, 495, 220, 66, 12, 1]

/-- Row 13 of Pascal's triangle (A007318.cpp). -/
def row13 : List Nat := [1, 13, 78, 286, 715, 1287, 1716, 1716, 1287, 715, 286, 78, 13, 1]

/-- Row 14 of Pascal's triangle (A007318.cpp). -/
def row14 : List Nat := [1, 14, 91, 364, 1001, 2002, 3003, 3432, 3003, 2002, 1001, 364, 91, 14, 1]

/-- Row 15 of Pascal's triangle (A007318.cpp). -/
def row15 : List Nat := [1, 15, 105, 455, 1365, 3003, 5005, 6435, 6435, 5005, 3003, 1365, 455, 105, 15, 1]

/-- Row 16 of Pascal's triangle (A007318.cpp). -/
def row16 : List Nat := [1, 16, 120, 560, 1820, 4368, 8008, 11440, 12870, 11440, 8008, 4368, 1820, 560, 120, 16, 1]

/-- Row 17 of Pascal's triangle (A007318.cpp). -/
def row17 : List Nat := [1, 17, 136, 680, 2380, 6188, 12376, 19448, 24310, 24310, 19448, 12376, 6188, 2380, 680, 136, 17, 1]

/-- Row 18 of Pascal's triangle (A007318.cpp). -/
def row18 : List Nat := [1, 18, 153, 816, 3060, 8568, 18564, 31824, 43758, 48620, 43758, 31824, 18564, 8568, 3060, 816, 153, 18, 1]

/-- Row 19 of Pascal's triangle (A007318.cpp). -/
def row19 : List Nat := [1, 19, 171, 969, 3876, 11628, 27132, 50388, 75582, 92378, 92378, 75582, 50388, 27132, 11628, 3876, 969, 171, 19, 1]

/-- Row 20 of Pascal's triangle (A007318.cpp). -/
def row20 : List Nat := [1, 20, 190, 1140, 4845, 15504, 38760, 77520, 125970, 167960, 184756, 167960, 125970, 77520, 38760, 15504, 4845, 1140, 190, 20, 1]

/-- Row 21 of Pascal's triangle (A007318.cpp). -/
def row21 : List Nat := [1, 21, 210, 1330, 5985, 20349, 54264, 116280, 203490, 293930, 352716, 352716, 293930, 203490, 116280, 54264, 20349, 5985, 1330, 210, 21, 1]

/-- Row 22 of Pascal's triangle (A007318.cpp). -/
def row22 : List Nat := [1, 22, 231, 1540, 7315, 26334, 74613, 170544, 319770, 497420, 646646, 705432, 646646, 497420, 319770, 170544, 74613, 26334, 7315, 1540, 231, 22, 1]

/-- Row 23 of Pascal's triangle (A007318.cpp). -/
def row23 : List Nat := [1, 23, 253, 1771, 8855, 33649, 100947, 245157, 490314, 817190, 1144066, 1352078, 1352078, 1144066, 817190, 490314, 245157, 100947, 33649, 8855, 1771, 253, 23, 1]

/-- Row 24 of Pascal's triangle (A007318.cpp). -/
def row24 : List Nat := [1, 24, 276, 2024, 10626, 42504, 134596, 346104, 735471, 1307504, 1961256, 2496144, 2704156, 2496144, 1961256, 1307504, 735471, 346104, 134596, 42504, 10626, 2024, 276, 24, 1]

/-- Row 25 of Pascal's triangle (A007318.cpp). -/
def row25 : List Nat := [1, 25, 300, 2300, 12650, 53130, 177100, 480700, 1081575, 2042975, 3268760, 4457400, 5200300, 5200300, 4457400, 3268760, 2042975, 1081575, 480700, 177100, 53130, 12650, 2300, 300, 25, 1]

/-- Row 26 of Pascal's triangle (A007318.cpp). -/
def row26 : List Nat := [1, 26, 325, 2600, 14950, 65780, 230230, 657800, 1562275, 3124550, 5311735, 7726160, 9657700, 10400600, 9657700, 7726160, 5311735, 3124550, 1562275, 657800, 230230, 65780, 14950, 2600, 325, 26, 1]

/-- Row 27 of Pascal's triangle (A007318.cpp). -/
def row27 : List Nat := [1, 27, 351, 2925, 17550, 80730, 296010, 888030, 2220075, 4686825, 8436285, 13037895, 17383860, 20058300, 20058300, 17383860, 13037895, 8436285, 4686825, 2220075, 888030, 296010, 80730, 17550, 2925, 351, 27, 1]

/-- Row 28 of Pascal's triangle (A007318.cpp). -/
def row28 : List Nat := [1, 28, 378, 3276, 20475, 98280, 376740, 1184040, 3108105, 6906900, 13123110, 21474180, 30421755, 37442160, 40116600, 37442160, 30421755, 21474180, 13123110, 6906900, 3108105, 1184040, 376740, 98280, 20475, 3276, 378, 28, 1]

/-- Row 29 of Pascal's triangle (A007318.cpp). -/
def row29 : List Nat := [1, 29, 406, 3654, 23751, 118755, 475020, 1560780, 4292145, 10015005, 20030010, 34597290, 51895935, 67863915, 77558760, 77558760, 67863915, 51895935, 34597290, 20030010, 10015005, 4292145, 1560780, 475020, 118755, 23751, 3654, 406, 29, 1]

/-- Row 30 of Pascal's triangle (A007318.cpp). -/
def row30 : List Nat := [1, 30, 435, 4060, 27405, 142506, 593775, 2035800, 5852925, 14307150, 30045015, 54627300, 86493225, 119759850, 145422675, 155117520, 145422675, 119759850, 86493225, 54627300, 30045015, 14307150, 5852925, 2035800, 593775, 142506, 27405, 4060, 435, 30, 1]

/-- Row 31 of Pascal's triangle (A007318.cpp). -/
def row31 : List Nat := [1, 31, 465, 4495, 31465, 169911, 736281, 2629575, 7888725, 20160075, 44352165, 84672315, 141120525, 206253075, 265182525, 300540195, 300540195, 265182525, 206253075, 141120525, 84672315, 44352165, 20160075, 7888725, 2629575, 736281, 169911, 31465, 4495, 465, 31, 1]

/-- Row 32 of Pascal's triangle (A007318.cpp). -/
def row32 : List Nat := [1, 32, 496, 4960, 35960, 201376, 906192, 3365856, 10518300, 28048800, 64512240, 129024480, 225792840, 347373600, 471435600, 565722720, 601080390, 565722720, 471435600, 347373600, 225792840, 129024480, 64512240, 28048800, 10518300, 3365856, 906192, 201376, 35960, 4960, 496, 32, 1]

/-- Row 33 of Pascal's triangle (A007318.cpp). -/
def row33 : List Nat := [1, 33, 528, 5456, 40920, 237336, 1107568, 4272048, 13884156, 38567100, 92561040, 193536720, 354817320, 573166440, 818809200, 1037158320, 1166803110, 1166803110, 1037158320, 818809200, 573166440, 354817320, 193536720, 92561040, 38567100, 13884156, 4272048, 1107568, 237336, 40920, 5456, 528, 33, 1]

/-- Row 34 of Pascal's triangle (A007318.cpp). -/
def row34 : List Nat := [1, 34, 561, 5984, 46376, 278256, 1344904, 5379616, 18156204, 52451256, 131128140, 286097760, 548354040, 927983760, 1391975640, 1855967520, 2203961430, 2333606220, 2203961430, 1855967520, 1391975640, 927983760, 548354040, 286097760, 131128140, 52451256, 18156204, 5379616, 1344904, 278256, 46376, 5984, 561, 34, 1]

/-- Row 35 of Pascal's triangle (A007318.cpp). -/
def row35 : List Nat := [1, 35, 595, 6545, 52360, 324632, 1623160, 6724520, 23535820, 70607460, 183579396, 417225900, 834451800, 1476337800, 2319959400, 3247943160, 4059928950, 4537567650, 4537567650, 4059928950, 3247943160, 2319959400, 1476337800, 834451800, 417225900, 183579396, 70607460, 23535820, 6724520, 1623160, 324632, 52360, 6545, 595, 35, 1]

/-- Row 36 of Pascal's triangle (A007318.cpp). -/
def row36 : List Nat := [1, 36, 630, 7140, 58905, 376992, 1947792, 8347680, 30260340, 94143280, 254186856, 600805296, 1251677700, 2310789600, 3796297200, 5567902560, 7307872110, 8597496600, 9075135300, 8597496600, 7307872110, 5567902560, 3796297200, 2310789600, 1251677700, 600805296, 254186856, 94143280, 30260340, 8347680, 1947792, 376992, 58905, 7140, 630, 36, 1]

/-- Row 37 of Pascal's triangle (A007318.cpp). -/
def row37 : List Nat := [1, 37, 666, 7770, 66045, 435897, 2324784, 10295472, 38608020, 124403620, 348330136, 854992152, 1852482996, 3562467300, 6107086800, 9364199760, 12875774670, 15905368710, 17672631900, 17672631900, 15905368710, 12875774670, 9364199760, 6107086800, 3562467300, 1852482996, 854992152, 348330136, 124403620, 38608020, 10295472, 2324784, 435897, 66045, 7770, 666, 37, 1]

/-- Row 38 of Pascal's triangle (A007318.cpp). -/
def row38 : List Nat := [1, 38, 703, 8436, 73815, 501942, 2760681, 12620256, 48903492, 163011640, 472733756, 1203322288, 2707475148, 5414950296, 9669554100, 15471286560, 22239974430, 28781143380, 33578000610, 35345263800, 33578000610, 28781143380, 22239974430, 15471286560, 9669554100, 5414950296, 2707475148, 1203322288, 472733756, 163011640, 48903492, 12620256, 2760681, 501942, 73815, 8436, 703, 38, 1]

/-- Row 39 of Pascal's triangle (A007318.cpp). -/
def row39 : List Nat := [1, 39, 741, 9139, 82251, 575757, 3262623, 15380937, 61523748, 211915132, 635745396, 1676056044, 3910797436, 8122425444, 15084504396, 25140840660, 37711260990, 51021117810, 62359143990, 68923264410, 68923264410, 62359143990, 51021117810, 37711260990, 25140840660, 15084504396, 8122425444, 3910797436, 1676056044, 635745396, 211915132, 61523748, 15380937, 3262623, 575757, 82251, 9139, 741, 39, 1]

/-- Row 40 of Pascal's triangle (A007318.cpp). -/
def row40 : List Nat := [1, 40, 780, 9880, 91390, 658008, 3838380, 18643560, 76904685, 273438880, 847660528, 2311801440, 5586853480, 12033222880, 23206929840, 40225345056, 62852101650, 88732378800, 113380261800, 131282408400, 137846528820, 131282408400, 113380261800, 88732378800, 62852101650, 40225345056, 23206929840, 12033222880, 5586853480, 2311801440, 847660528, 273438880, 76904685, 18643560, 3838380, 658008, 91390, 9880, 780, 40, 1]

/-- Row 41 of Pascal's triangle (A007318.cpp). -/
def row41 : List Nat := [1, 41, 820, 10660, 101270, 749398, 4496388, 22481940, 95548245, 350343565, 1121099408, 3159461968, 7898654920, 17620076360, 35240152720, 63432274896, 103077446706, 151584480450, 202112640600, 244662670200, 269128937220, 269128937220, 244662670200, 202112640600, 151584480450, 103077446706, 63432274896, 35240152720, 17620076360, 7898654920, 3159461968, 1121099408, 350343565, 95548245, 22481940, 4496388, 749398, 101270, 10660, 820, 41, 1]

/-- Row 42 of Pascal's triangle (A007318.cpp). -/
def row42 : List Nat := [1, 42, 861, 11480, 111930, 850668, 5245786, 26978328, 118030185, 445891810, 1471442973, 4280561376, 11058116888, 25518731280, 52860229080, 98672427616, 166509721602, 254661927156, 353697121050, 446775310800, 513791607420, 538257874440, 513791607420, 446775310800, 353697121050, 254661927156, 166509721602, 98672427616, 52860229080, 25518731280, 11058116888, 4280561376, 1471442973, 445891810, 118030185, 26978328, 5245786, 850668, 111930, 11480, 861, 42, 1]

/-- Row 43 of Pascal's triangle (A007318.cpp). -/
def row43 : List Nat := [1, 43, 903, 12341, 123410, 962598, 6096454, 32224114, 145008513, 563921995, 1917334783, 5752004349, 15338678264, 36576848168, 78378960360, 151532656696, 265182149218, 421171648758, 608359048206, 800472431850, 960566918220, 1052049481860, 1052049481860, 960566918220, 800472431850, 608359048206, 421171648758, 265182149218, 151532656696, 78378960360, 36576848168, 15338678264, 5752004349, 1917334783, 563921995, 145008513, 32224114, 6096454, 962598, 123410, 12341, 903, 43, 1]

/-- Row 44 of Pascal's triangle (A007318.cpp). -/
def row44 : List Nat := [1, 44, 946, 13244, 135751, 1086008, 7059052, 38320568, 177232627, 708930508, 2481256778, 7669339132, 21090682613, 51915526432, 114955808528, 229911617056, 416714805914, 686353797976, 1029530696964, 1408831480056, 1761039350070, 2012616400080, 2104098963720, 2012616400080, 1761039350070, 1408831480056, 1029530696964, 686353797976, 416714805914, 229911617056, 114955808528, 51915526432, 21090682613, 7669339132, 2481256778, 708930508, 177232627, 38320568, 7059052, 1086008, 135751, 13244, 946, 44, 1]

/-- Row 45 of Pascal's triangle (A007318.cpp). -/
def row45 : List Nat := [1, 45, 990, 14190, 148995, 1221759, 8145060, 45379620, 215553195, 886163135, 3190187286, 10150595910, 28760021745, 73006209045, 166871334960, 344867425584, 646626422970, 1103068603890, 1715884494940, 2438362177020, 3169870830126, 3773655750150, 4116715363800, 4116715363800, 3773655750150, 3169870830126, 2438362177020, 1715884494940, 1103068603890, 646626422970, 344867425584, 166871334960, 73006209045, 28760021745, 10150595910, 3190187286, 886163135, 215553195, 45379620, 8145060, 1221759, 148995, 14190, 990, 45, 1]

/-- Row 46 of Pascal's triangle (A007318.cpp). -/
def row46 : List Nat := [1, 46, 1035, 15180, 163185, 1370754, 9366819, 53524680, 260932815, 1101716330, 4076350421, 13340783196, 38910617655, 101766230790, 239877544005, 511738760544, 991493848554, 1749695026860, 2818953098830, 4154246671960, 5608233007146, 6943526580276, 7890371113950, 8233430727600, 7890371113950, 6943526580276, 5608233007146, 4154246671960, 2818953098830, 1749695026860, 991493848554, 511738760544, 239877544005, 101766230790, 38910617655, 13340783196, 4076350421, 1101716330, 260932815, 53524680, 9366819, 1370754, 163185, 15180, 1035, 46, 1]

/-- Row 47 of Pascal's triangle (A007318.cpp). -/
def row47 : List Nat := [1, 47, 1081, 16215, 178365, 1533939, 10737573, 62891499, 314457495, 1362649145, 5178066751, 17417133617, 52251400851, 140676848445, 341643774795, 751616304549, 1503232609098, 2741188875414, 4568648125690, 6973199770790, 9762479679106, 12551759587422, 14833897694226, 16123801841550, 16123801841550, 14833897694226, 12551759587422, 9762479679106, 6973199770790, 4568648125690, 2741188875414, 1503232609098, 751616304549, 341643774795, 140676848445, 52251400851, 17417133617, 5178066751, 1362649145, 314457495, 62891499, 10737573, 1533939, 178365, 16215, 1081, 47, 1]

/-- Row 48 of Pascal's triangle (A007318.cpp). -/
def row48 : List Nat := [1, 48, 1128, 17296, 194580, 1712304, 12271512, 73629072, 377348994, 1677106640, 6540715896, 22595200368, 69668534468, 192928249296, 482320623240, 1093260079344, 2254848913647, 4244421484512, 7309837001104, 11541847896480, 16735679449896, 22314239266528, 27385657281648, 30957699535776, 32247603683100, 30957699535776, 27385657281648, 22314239266528, 16735679449896, 11541847896480, 7309837001104, 4244421484512, 2254848913647, 1093260079344, 482320623240, 192928249296, 69668534468, 22595200368, 6540715896, 1677106640, 377348994, 73629072, 12271512, 1712304, 194580, 17296, 1128, 48, 1]

/-- Row 49 of Pascal's triangle (A007318.cpp). -/
def row49 : List Nat := [1, 49, 1176, 18424, 211876, 1906884, 13983816, 85900584, 450978066, 2054455634, 8217822536, 29135916264, 92263734836, 262596783764, 675248872536, 1575580702584, 3348108992991, 6499270398159, 11554258485616, 18851684897584, 28277527346376, 39049918716424, 49699896548176, 58343356817424, 63205303218876, 63205303218876, 58343356817424, 49699896548176, 39049918716424, 28277527346376, 18851684897584, 11554258485616, 6499270398159, 3348108992991, 1575580702584, 675248872536, 262596783764, 92263734836, 29135916264, 8217822536, 2054455634, 450978066, 85900584, 13983816, 1906884, 211876, 18424, 1176, 49, 1]

/-- Row 50 of Pascal's triangle (A007318.cpp). -/
def row50 : List Nat := [1, 50, 1225, 19600, 230300, 2118760, 15890700, 99884400, 536878650, 2505433700, 10272278170, 37353738800, 121399651100, 354860518600, 937845656300, 2250829575120, 4923689695575, 9847379391150, 18053528883775, 30405943383200, 47129212243960, 67327446062800, 88749815264600, 108043253365600, 121548660036300, 126410606437752, 121548660036300, 108043253365600, 88749815264600, 67327446062800, 47129212243960, 30405943383200, 18053528883775, 9847379391150, 4923689695575, 2250829575120, 937845656300, 354860518600, 121399651100, 37353738800, 10272278170, 2505433700, 536878650, 99884400, 15890700, 2118760, 230300, 19600, 1225, 50, 1]

/-- Row 51 of Pascal's triangle (A007318.cpp). -/
def row51 : List Nat := [1, 51, 1275, 20825, 249900, 2349060, 18009460, 115775100, 636763050, 3042312350, 12777711870, 47626016970, 158753389900, 476260169700, 1292706174900, 3188675231420, 7174519270695, 14771069086725, 27900908274925, 48459472266975, 77535155627160, 114456658306760, 156077261327400, 196793068630200, 229591913401900, 247959266474052, 247959266474052, 229591913401900, 196793068630200, 156077261327400, 114456658306760, 77535155627160, 48459472266975, 27900908274925, 14771069086725, 7174519270695, 3188675231420, 1292706174900, 476260169700, 158753389900, 47626016970, 12777711870, 3042312350, 636763050, 115775100, 18009460, 2349060, 249900, 20825, 1275, 51, 1]

/-- Row 52 of Pascal's triangle (A007318.cpp). -/
def row52 : List Nat := [1, 52, 1326, 22100, 270725, 2598960, 20358520, 133784560, 752538150, 3679075400, 15820024220, 60403728840, 206379406870, 635013559600, 1768966344600, 4481381406320, 10363194502115, 21945588357420, 42671977361650, 76360380541900, 125994627894135, 191991813933920, 270533919634160, 352870329957600, 426384982032100, 477551179875952, 495918532948104, 477551179875952, 426384982032100, 352870329957600, 270533919634160, 191991813933920, 125994627894135, 76360380541900, 42671977361650, 21945588357420, 10363194502115, 4481381406320, 1768966344600, 635013559600, 206379406870, 60403728840, 15820024220, 3679075400, 752538150, 133784560, 20358520, 2598960, 270725, 22100, 1326, 52, 1]

/-- Row 53 of Pascal's triangle (A007318.cpp). -/
def row53 : List Nat := [1, 53, 1378, 23426, 292825, 2869685, 22957480, 154143080, 886322710, 4431613550, 19499099620, 76223753060, 266783135710, 841392966470, 2403979904200, 6250347750920, 14844575908435, 32308782859535, 64617565719070, 119032357903550, 202355008436035, 317986441828055, 462525733568080, 623404249591760, 779255311989700, 903936161908052, 973469712824056, 973469712824056, 903936161908052, 779255311989700, 623404249591760, 462525733568080, 317986441828055, 202355008436035, 119032357903550, 64617565719070, 32308782859535, 14844575908435, 6250347750920, 2403979904200, 841392966470, 266783135710, 76223753060, 19499099620, 4431613550, 886322710, 154143080, 22957480, 2869685, 292825, 23426, 1378, 53, 1]

/-- Row 54 of Pascal's triangle (A007318.cpp). -/
def row54 : List Nat := [1, 54, 1431, 24804, 316251, 3162510, 25827165, 177100560, 1040465790, 5317936260, 23930713170, 95722852680, 343006888770, 1108176102180, 3245372870670, 8654327655120, 21094923659355, 47153358767970, 96926348578605, 183649923622620, 321387366339585, 520341450264090, 780512175396135, 1085929983159840, 1402659561581460, 1683191473897752, 1877405874732108, 1946939425648112, 1877405874732108, 1683191473897752, 1402659561581460, 1085929983159840, 780512175396135, 520341450264090, 321387366339585, 183649923622620, 96926348578605, 47153358767970, 21094923659355, 8654327655120, 3245372870670, 1108176102180, 343006888770, 95722852680, 23930713170, 5317936260, 1040465790, 177100560, 25827165, 3162510, 316251, 24804, 1431, 54, 1]

/-- Row 55 of Pascal's triangle (A007318.cpp). -/
def row55 : List Nat := [1, 55, 1485, 26235, 341055, 3478761, 28989675, 202927725, 1217566350, 6358402050, 29248649430, 119653565850, 438729741450, 1451182990950, 4353548972850, 11899700525790, 29749251314475, 68248282427325, 144079707346575, 280576272201225, 505037289962205, 841728816603675, 1300853625660225, 1866442158555975, 2488589544741300, 3085851035479212, 3560597348629860, 3824345300380220, 3824345300380220, 3560597348629860, 3085851035479212, 2488589544741300, 1866442158555975, 1300853625660225, 841728816603675, 505037289962205, 280576272201225, 144079707346575, 68248282427325, 29749251314475, 11899700525790, 4353548972850, 1451182990950, 438729741450, 119653565850, 29248649430, 6358402050, 1217566350, 202927725, 28989675, 3478761, 341055, 26235, 1485, 55, 1]

/-- Row 56 of Pascal's triangle (A007318.cpp). -/
def row56 : List Nat := [1, 56, 1540, 27720, 367290, 3819816, 32468436, 231917400, 1420494075, 7575968400, 35607051480, 148902215280, 558383307300, 1889912732400, 5804731963800, 16253249498640, 41648951840265, 97997533741800, 212327989773900, 424655979547800, 785613562163430, 1346766106565880, 2142582442263900, 3167295784216200, 4355031703297275, 5574440580220512, 6646448384109072, 7384942649010080, 7648690600760440, 7384942649010080, 6646448384109072, 5574440580220512, 4355031703297275, 3167295784216200, 2142582442263900, 1346766106565880, 785613562163430, 424655979547800, 212327989773900, 97997533741800, 41648951840265, 16253249498640, 5804731963800, 1889912732400, 558383307300, 148902215280, 35607051480, 7575968400, 1420494075, 231917400, 32468436, 3819816, 367290, 27720, 1540, 56, 1]

/-- Row 57 of Pascal's triangle (A007318.cpp). -/
def row57 : List Nat := [1, 57, 1596, 29260, 395010, 4187106, 36288252, 264385836, 1652411475, 8996462475, 43183019880, 184509266760, 707285522580, 2448296039700, 7694644696200, 22057981462440, 57902201338905, 139646485582065, 310325523515700, 636983969321700, 1210269541711230, 2132379668729310, 3489348548829780, 5309878226480100, 7522327487513475, 9929472283517787, 12220888964329584, 14031391033119152, 15033633249770520, 15033633249770520, 14031391033119152, 12220888964329584, 9929472283517787, 7522327487513475, 5309878226480100, 3489348548829780, 2132379668729310, 1210269541711230, 636983969321700, 310325523515700, 139646485582065, 57902201338905, 22057981462440, 7694644696200, 2448296039700, 707285522580, 184509266760, 43183019880, 8996462475, 1652411475, 264385836, 36288252, 4187106, 395010, 29260, 1596, 57, 1]

/-- Row 58 of Pascal's triangle (A007318.cpp). -/
def row58 : List Nat := [1, 58, 1653, 30856, 424270, 4582116, 40475358, 300674088, 1916797311, 10648873950, 52179482355, 227692286640, 891794789340, 3155581562280, 10142940735900, 29752626158640, 79960182801345, 197548686920970, 449972009097765, 947309492837400, 1847253511032930, 3342649210440540, 5621728217559090, 8799226775309880, 12832205713993575, 17451799771031262, 22150361247847371, 26252279997448736, 29065024282889672, 30067266499541040, 29065024282889672, 26252279997448736, 22150361247847371, 17451799771031262, 12832205713993575, 8799226775309880, 5621728217559090, 3342649210440540, 1847253511032930, 947309492837400, 449972009097765, 197548686920970, 79960182801345, 29752626158640, 10142940735900, 3155581562280, 891794789340, 227692286640, 52179482355, 10648873950, 1916797311, 300674088, 40475358, 4582116, 424270, 30856, 1653, 58, 1]

/-- Row 59 of Pascal's triangle (A007318.cpp). -/
def row59 : List Nat := [1, 59, 1711, 32509, 455126, 5006386, 45057474, 341149446, 2217471399, 12565671261, 62828356305, 279871768995, 1119487075980, 4047376351620, 13298522298180, 39895566894540, 109712808959985, 277508869722315, 647520696018735, 1397281501935165, 2794563003870330, 5189902721473470, 8964377427999630, 14420954992868970, 21631432489303455, 30284005485024837, 39602161018878633, 48402641245296107, 55317304280338408, 59132290782430712, 59132290782430712, 55317304280338408, 48402641245296107, 39602161018878633, 30284005485024837, 21631432489303455, 14420954992868970, 8964377427999630, 5189902721473470, 2794563003870330, 1397281501935165, 647520696018735, 277508869722315, 109712808959985, 39895566894540, 13298522298180, 4047376351620, 1119487075980, 279871768995, 62828356305, 12565671261, 2217471399, 341149446, 45057474, 5006386, 455126, 32509, 1711, 59, 1]

/-- Row 60 of Pascal's triangle (A007318.cpp). -/
def row60 : List Nat := [1, 60, 1770, 34220, 487635, 5461512, 50063860, 386206920, 2558620845, 14783142660, 75394027566, 342700125300, 1399358844975, 5166863427600, 17345898649800, 53194089192720, 149608375854525, 387221678682300, 925029565741050, 2044802197953900, 4191844505805495, 7984465725343800, 14154280149473100, 23385332420868600, 36052387482172425, 51915437974328292, 69886166503903470, 88004802264174740, 103719945525634515, 114449595062769120, 118264581564861424, 114449595062769120, 103719945525634515, 88004802264174740, 69886166503903470, 51915437974328292, 36052387482172425, 23385332420868600, 14154280149473100, 7984465725343800, 4191844505805495, 2044802197953900, 925029565741050, 387221678682300, 149608375854525, 53194089192720, 17345898649800, 5166863427600, 1399358844975, 342700125300, 75394027566, 14783142660, 2558620845, 386206920, 50063860, 5461512, 487635, 34220, 1770, 60, 1]

/-- Row 61 of Pascal's triangle (A007318.cpp). -/
def row61 : List Nat := [1, 61, 1830, 35990, 521855, 5949147, 55525372, 436270780, 2944827765, 17341763505, 90177170226, 418094152866, 1742058970275, 6566222272575, 22512762077400, 70539987842520, 202802465047245, 536830054536825, 1312251244423350, 2969831763694950, 6236646703759395, 12176310231149295, 22138745874816900, 37539612570341700, 59437719903041025, 87967825456500717, 121801604478231762, 157890968768078210, 191724747789809255, 218169540588403635, 232714176627630544, 232714176627630544, 218169540588403635, 191724747789809255, 157890968768078210, 121801604478231762, 87967825456500717, 59437719903041025, 37539612570341700, 22138745874816900, 12176310231149295, 6236646703759395, 2969831763694950, 1312251244423350, 536830054536825, 202802465047245, 70539987842520, 22512762077400, 6566222272575, 1742058970275, 418094152866, 90177170226, 17341763505, 2944827765, 436270780, 55525372, 5949147, 521855, 35990, 1830, 61, 1]

/-- Row 62 of Pascal's triangle (A007318.cpp). -/
def row62 : List Nat := [1, 62, 1891, 37820, 557845, 6471002, 61474519, 491796152, 3381098545, 20286591270, 107518933731, 508271323092, 2160153123141, 8308281242850, 29078984349975, 93052749919920, 273342452889765, 739632519584070, 1849081298960175, 4282083008118300, 9206478467454345, 18412956934908690, 34315056105966195, 59678358445158600, 96977332473382725, 147405545359541742, 209769429934732479, 279692573246309972, 349615716557887465, 409894288378212890, 450883717216034179, 465428353255261088, 450883717216034179, 409894288378212890, 349615716557887465, 279692573246309972, 209769429934732479, 147405545359541742, 96977332473382725, 59678358445158600, 34315056105966195, 18412956934908690, 9206478467454345, 4282083008118300, 1849081298960175, 739632519584070, 273342452889765, 93052749919920, 29078984349975, 8308281242850, 2160153123141, 508271323092, 107518933731, 20286591270, 3381098545, 491796152, 61474519, 6471002, 557845, 37820, 1891, 62, 1]

/-- Row 63 of Pascal's triangle (A007318.cpp). -/
def row63 : List Nat := [1, 63, 1953, 39711, 595665, 7028847, 67945521, 553270671, 3872894697, 23667689815, 127805525001, 615790256823, 2668424446233, 10468434365991, 37387265592825, 122131734269895, 366395202809685, 1012974972473835, 2588713818544245, 6131164307078475, 13488561475572645, 27619435402363035, 52728013040874885, 93993414551124795, 156655690918541325, 244382877832924467, 357174975294274221, 489462003181042451, 629308289804197437, 759510004936100355, 860778005594247069, 916312070471295267, 916312070471295267, 860778005594247069, 759510004936100355, 629308289804197437, 489462003181042451, 357174975294274221, 244382877832924467, 156655690918541325, 93993414551124795, 52728013040874885, 27619435402363035, 13488561475572645, 6131164307078475, 2588713818544245, 1012974972473835, 366395202809685, 122131734269895, 37387265592825, 10468434365991, 2668424446233, 615790256823, 127805525001, 23667689815, 3872894697, 553270671, 67945521, 7028847, 595665, 39711, 1953, 63, 1]

/-- Row 64 of Pascal's triangle (A007318.cpp). -/
def row64 : List Nat := [1, 64, 2016, 41664, 635376, 7624512, 74974368, 621216192, 4426165368, 27540584512, 151473214816, 743595781824, 3284214703056, 13136858812224, 47855699958816, 159518999862720, 488526937079580, 1379370175283520, 3601688791018080, 8719878125622720, 19619725782651120, 41107996877935680, 80347448443237920, 146721427591999680, 250649105469666120, 401038568751465792, 601557853127198688, 846636978475316672, 1118770292985239888, 1388818294740297792, 1620288010530347424, 1777090076065542336, 1832624140942590534, 1777090076065542336, 1620288010530347424, 1388818294740297792, 1118770292985239888, 846636978475316672, 601557853127198688, 401038568751465792, 250649105469666120, 146721427591999680, 80347448443237920, 41107996877935680, 19619725782651120, 8719878125622720, 3601688791018080, 1379370175283520, 488526937079580, 159518999862720, 47855699958816, 13136858812224, 3284214703056, 743595781824, 151473214816, 27540584512, 4426165368, 621216192, 74974368, 7624512, 635376, 41664, 2016, 64, 1]

/-- Row 65 of Pascal's triangle (A007318.cpp). -/
def row65 : List Nat := [1, 65, 2080, 43680, 677040, 8259888, 82598880, 696190560, 5047381560, 31966749880, 179013799328, 895068996640, 4027810484880, 16421073515280, 60992558771040, 207374699821536, 648045936942300, 1867897112363100, 4981058966301600, 12321566916640800, 28339603908273840, 60727722660586800, 121455445321173600, 227068876035237600, 397370533061665800, 651687674221131912, 1002596421878664480, 1448194831602515360, 1965407271460556560, 2507588587725537680, 3009106305270645216, 3397378086595889760, 3609714217008132870, 3609714217008132870, 3397378086595889760, 3009106305270645216, 2507588587725537680, 1965407271460556560, 1448194831602515360, 1002596421878664480, 651687674221131912, 397370533061665800, 227068876035237600, 121455445321173600, 60727722660586800, 28339603908273840, 12321566916640800, 4981058966301600, 1867897112363100, 648045936942300, 207374699821536, 60992558771040, 16421073515280, 4027810484880, 895068996640, 179013799328, 31966749880, 5047381560, 696190560, 82598880, 8259888, 677040, 43680, 2080, 65, 1]

/-- Row 66 of Pascal's triangle (A007318.cpp). -/
def row66 : List Nat := [1, 66, 2145, 45760, 720720, 8936928, 90858768, 778789440, 5743572120, 37014131440, 210980549208, 1074082795968, 4922879481520, 20448884000160, 77413632286320, 268367258592576, 855420636763836, 2515943049305400, 6848956078664700, 17302625882942400, 40661170824914640, 89067326568860640, 182183167981760400, 348524321356411200, 624439409096903400, 1049058207282797712, 1654284096099796392, 2450791253481179840, 3413602103063071920, 4472995859186094240, 5516694892996182896, 6406484391866534976, 7007092303604022630, 7219428434016265740, 7007092303604022630, 6406484391866534976, 5516694892996182896, 4472995859186094240, 3413602103063071920, 2450791253481179840, 1654284096099796392, 1049058207282797712, 624439409096903400, 348524321356411200, 182183167981760400, 89067326568860640, 40661170824914640, 17302625882942400, 6848956078664700, 2515943049305400, 855420636763836, 268367258592576, 77413632286320, 20448884000160, 4922879481520, 1074082795968, 210980549208, 37014131440, 5743572120, 778789440, 90858768, 8936928, 720720, 45760, 2145, 66, 1]

/-- Row 67 of Pascal's triangle (A007318.cpp). -/
def row67 : List Nat := [1, 67, 2211, 47905, 766480, 9657648, 99795696, 869648208, 6522361560, 42757703560, 247994680648, 1285063345176, 5996962277488, 25371763481680, 97862516286480, 345780890878896, 1123787895356412, 3371363686069236, 9364899127970100, 24151581961607100, 57963796707857040, 129728497393775280, 271250494550621040, 530707489338171600, 972963730453314600, 1673497616379701112, 2703342303382594104, 4105075349580976232, 5864393356544251760, 7886597962249166160, 9989690752182277136, 11923179284862717872, 13413576695470557606, 14226520737620288370, 14226520737620288370, 13413576695470557606, 11923179284862717872, 9989690752182277136, 7886597962249166160, 5864393356544251760, 4105075349580976232, 2703342303382594104, 1673497616379701112, 972963730453314600, 530707489338171600, 271250494550621040, 129728497393775280, 57963796707857040, 24151581961607100, 9364899127970100, 3371363686069236, 1123787895356412, 345780890878896, 97862516286480, 25371763481680, 5996962277488, 1285063345176, 247994680648, 42757703560, 6522361560, 869648208, 99795696, 9657648, 766480, 47905, 2211, 67, 1]

/-- Row 68 of Pascal's triangle (A007318.cpp). -/
def row68 : List Nat := [1, 68, 2278, 50116, 814385, 10424128, 109453344, 969443904, 7392009768, 49280065120, 290752384208, 1533058025824, 7282025622664, 31368725759168, 123234279768160, 443643407165376, 1469568786235308, 4495151581425648, 12736262814039336, 33516481089577200, 82115378669464140, 187692294101632320, 400978991944396320, 801957983888792640, 1503671219791486200, 2646461346833015712, 4376839919762295216, 6808417652963570336, 9969468706125227992, 13750991318793417920, 17876288714431443296, 21912870037044995008, 25336755980333275478, 27640097433090845976, 28453041475240576740, 27640097433090845976, 25336755980333275478, 21912870037044995008, 17876288714431443296, 13750991318793417920, 9969468706125227992, 6808417652963570336, 4376839919762295216, 2646461346833015712, 1503671219791486200, 801957983888792640, 400978991944396320, 187692294101632320, 82115378669464140, 33516481089577200, 12736262814039336, 4495151581425648, 1469568786235308, 443643407165376, 123234279768160, 31368725759168, 7282025622664, 1533058025824, 290752384208, 49280065120, 7392009768, 969443904, 109453344, 10424128, 814385, 50116, 2278, 68, 1]

/-- Row 69 of Pascal's triangle (A007318.cpp). -/
def row69 : List Nat := [1, 69, 2346, 52394, 864501, 11238513, 119877472, 1078897248, 8361453672, 56672074888, 340032449328, 1823810410032, 8815083648488, 38650751381832, 154603005527328, 566877686933536, 1913212193400684, 5964720367660956, 17231414395464984, 46252743903616536, 115631859759041340, 269807672771096460, 588671286046028640, 1202936975833188960, 2305629203680278840, 4150132566624501912, 7023301266595310928, 11185257572725865552, 16777886359088798328, 23720460024918645912, 31627280033224861216, 39789158751476438304, 47249626017378270486, 52976853413424121454, 56093138908331422716, 56093138908331422716, 52976853413424121454, 47249626017378270486, 39789158751476438304, 31627280033224861216, 23720460024918645912, 16777886359088798328, 11185257572725865552, 7023301266595310928, 4150132566624501912, 2305629203680278840, 1202936975833188960, 588671286046028640, 269807672771096460, 115631859759041340, 46252743903616536, 17231414395464984, 5964720367660956, 1913212193400684, 566877686933536, 154603005527328, 38650751381832, 8815083648488, 1823810410032, 340032449328, 56672074888, 8361453672, 1078897248, 119877472, 11238513, 864501, 52394, 2346, 69, 1]

/-- Row 70 of Pascal's triangle (A007318.cpp). -/
def row70 : List Nat := [1, 70, 2415, 54740, 916895, 12103014, 131115985, 1198774720, 9440350920, 65033528560, 396704524216, 2163842859360, 10638894058520, 47465835030320, 193253756909160, 721480692460864, 2480089880334220, 7877932561061640, 23196134763125940, 63484158299081520, 161884603662657876, 385439532530137800, 858478958817125100, 1791608261879217600, 3508566179513467800, 6455761770304780752, 11173433833219812840, 18208558839321176480, 27963143931814663880, 40498346384007444240, 55347740058143507128, 71416438784701299520, 87038784768854708790, 100226479430802391940, 109069992321755544170, 112186277816662845432, 109069992321755544170, 100226479430802391940, 87038784768854708790, 71416438784701299520, 55347740058143507128, 40498346384007444240, 27963143931814663880, 18208558839321176480, 11173433833219812840, 6455761770304780752, 3508566179513467800, 1791608261879217600, 858478958817125100, 385439532530137800, 161884603662657876, 63484158299081520, 23196134763125940, 7877932561061640, 2480089880334220, 721480692460864, 193253756909160, 47465835030320, 10638894058520, 2163842859360, 396704524216, 65033528560, 9440350920, 1198774720, 131115985, 12103014, 916895, 54740, 2415, 70, 1]

/-- Row 71 of Pascal's triangle (A007318.cpp). -/
def row71 : List Nat := [1, 71, 2485, 57155, 971635, 13019909, 143218999, 1329890705, 10639125640, 74473879480, 461738052776, 2560547383576, 12802736917880, 58104729088840, 240719591939480, 914734449370024, 3201570572795084, 10358022441395860, 31074067324187580, 86680293062207460, 225368761961739396, 547324136192795676, 1243918491347262900, 2650087220696342700, 5300174441392685400, 9964327949818248552, 17629195603524593592, 29381992672540989320, 46171702771135840360, 68461490315822108120, 95846086442150951368, 126764178842844806648, 158455223553556008310, 187265264199657100730, 209296471752557936110, 221256270138418389602, 221256270138418389602, 209296471752557936110, 187265264199657100730, 158455223553556008310, 126764178842844806648, 95846086442150951368, 68461490315822108120, 46171702771135840360, 29381992672540989320, 17629195603524593592, 9964327949818248552, 5300174441392685400, 2650087220696342700, 1243918491347262900, 547324136192795676, 225368761961739396, 86680293062207460, 31074067324187580, 10358022441395860, 3201570572795084, 914734449370024, 240719591939480, 58104729088840, 12802736917880, 2560547383576, 461738052776, 74473879480, 10639125640, 1329890705, 143218999, 13019909, 971635, 57155, 2485, 71, 1]

/-- Row 72 of Pascal's triangle (A007318.cpp). -/
def row72 : List Nat := [1, 72, 2556, 59640, 1028790, 13991544, 156238908, 1473109704, 11969016345, 85113005120, 536211932256, 3022285436352, 15363284301456, 70907466006720, 298824321028320, 1155454041309504, 4116305022165108, 13559593014190944, 41432089765583440, 117754360386395040, 312049055023946856, 772692898154535072, 1791242627540058576, 3894005712043605600, 7950261662089028100, 15264502391210933952, 27593523553342842144, 47011188276065582912, 75553695443676829680, 114633193086957948480, 164307576757973059488, 222610265284995758016, 285219402396400814958, 345720487753213109040, 396561735952215036840, 430552741890976325712, 442512540276836779204, 430552741890976325712, 396561735952215036840, 345720487753213109040, 285219402396400814958, 222610265284995758016, 164307576757973059488, 114633193086957948480, 75553695443676829680, 47011188276065582912, 27593523553342842144, 15264502391210933952, 7950261662089028100, 3894005712043605600, 1791242627540058576, 772692898154535072, 312049055023946856, 117754360386395040, 41432089765583440, 13559593014190944, 4116305022165108, 1155454041309504, 298824321028320, 70907466006720, 15363284301456, 3022285436352, 536211932256, 85113005120, 11969016345, 1473109704, 156238908, 13991544, 1028790, 59640, 2556, 72, 1]

/-- Row 73 of Pascal's triangle (A007318.cpp). -/
def row73 : List Nat := [1, 73, 2628, 62196, 1088430, 15020334, 170230452, 1629348612, 13442126049, 97082021465, 621324937376, 3558497368608, 18385569737808, 86270750308176, 369731787035040, 1454278362337824, 5271759063474612, 17675898036356052, 54991682779774384, 159186450151978480, 429803415410341896, 1084741953178481928, 2563935525694593648, 5685248339583664176, 11844267374132633700, 23214764053299962052, 42858025944553776096, 74604711829408425056, 122564883719742412592, 190186888530634778160, 278940769844931007968, 386917842042968817504, 507829667681396572974, 630939890149613923998, 742282223705428145880, 827114477843191362552, 873065282167813104916, 873065282167813104916, 827114477843191362552, 742282223705428145880, 630939890149613923998, 507829667681396572974, 386917842042968817504, 278940769844931007968, 190186888530634778160, 122564883719742412592, 74604711829408425056, 42858025944553776096, 23214764053299962052, 11844267374132633700, 5685248339583664176, 2563935525694593648, 1084741953178481928, 429803415410341896, 159186450151978480, 54991682779774384, 17675898036356052, 5271759063474612, 1454278362337824, 369731787035040, 86270750308176, 18385569737808, 3558497368608, 621324937376, 97082021465, 13442126049, 1629348612, 170230452, 15020334, 1088430, 62196, 2628, 73, 1]

/-- Row 74 of Pascal's triangle (A007318.cpp). -/
def row74 : List Nat := [1, 74, 2701, 64824, 1150626, 16108764, 185250786, 1799579064, 15071474661, 110524147514, 718406958841, 4179822305984, 21944067106416, 104656320045984, 456002537343216, 1824010149372864, 6726037425812436, 22947657099830664, 72667580816130436, 214178132931752864, 588989865562320376, 1514545368588823824, 3648677478873075576, 8249183865278257824, 17529515713716297876, 35059031427432595752, 66072789997853738148, 117462737773962201152, 197169595549150837648, 312751772250377190752, 469127658375565786128, 665858611887899825472, 894747509724365390478, 1138769557831010496972, 1373222113855042069878, 1569396701548619508432, 1700179760011004467468, 1746130564335626209832, 1700179760011004467468, 1569396701548619508432, 1373222113855042069878, 1138769557831010496972, 894747509724365390478, 665858611887899825472, 469127658375565786128, 312751772250377190752, 197169595549150837648, 117462737773962201152, 66072789997853738148, 35059031427432595752, 17529515713716297876, 8249183865278257824, 3648677478873075576, 1514545368588823824, 588989865562320376, 214178132931752864, 72667580816130436, 22947657099830664, 6726037425812436, 1824010149372864, 456002537343216, 104656320045984, 21944067106416, 4179822305984, 718406958841, 110524147514, 15071474661, 1799579064, 185250786, 16108764, 1150626, 64824, 2701, 74, 1]

/-- Row 75 of Pascal's triangle (A007318.cpp). -/
def row75 : List Nat := [1, 75, 2775, 67525, 1215450, 17259390, 201359550, 1984829850, 16871053725, 125595622175, 828931106355, 4898229264825, 26123889412400, 126600387152400, 560658857389200, 2280012686716080, 8550047575185300, 29673694525643100, 95615237915961100, 286845713747883300, 803167998494073240, 2103535234151144200, 5163222847461899400, 11897861344151333400, 25778699578994555700, 52588547141148893628, 101131821425286333900, 183535527771815939300, 314632333323113038800, 509921367799528028400, 781879430625942976880, 1134986270263465611600, 1560606121612265215950, 2033517067555375887450, 2511991671686052566850, 2942618815403661578310, 3269576461559623975900, 3446310324346630677300, 3446310324346630677300, 3269576461559623975900, 2942618815403661578310, 2511991671686052566850, 2033517067555375887450, 1560606121612265215950, 1134986270263465611600, 781879430625942976880, 509921367799528028400, 314632333323113038800, 183535527771815939300, 101131821425286333900, 52588547141148893628, 25778699578994555700, 11897861344151333400, 5163222847461899400, 2103535234151144200, 803167998494073240, 286845713747883300, 95615237915961100, 29673694525643100, 8550047575185300, 2280012686716080, 560658857389200, 126600387152400, 26123889412400, 4898229264825, 828931106355, 125595622175, 16871053725, 1984829850, 201359550, 17259390, 1215450, 67525, 2775, 75, 1]

/-- Row 76 of Pascal's triangle (A007318.cpp). -/
def row76 : List Nat := [1, 76, 2850, 70300, 1282975, 18474840, 218618940, 2186189400, 18855883575, 142466675900, 954526728530, 5727160371180, 31022118677225, 152724276564800, 687259244541600, 2840671544105280, 10830060261901380, 38223742100828400, 125288932441604200, 382460951663844400, 1090013712241956540, 2906703232645217440, 7266758081613043600, 17061084191613232800, 37676560923145889100, 78367246720143449328, 153720368566435227528, 284667349197102273200, 498167861094928978100, 824553701122641067200, 1291800798425471005280, 1916865700889408588480, 2695592391875730827550, 3594123189167641103400, 4545508739241428454300, 5454610487089714145160, 6212195276963285554210, 6715886785906254653200, 6892620648693261354600, 6715886785906254653200, 6212195276963285554210, 5454610487089714145160, 4545508739241428454300, 3594123189167641103400, 2695592391875730827550, 1916865700889408588480, 1291800798425471005280, 824553701122641067200, 498167861094928978100, 284667349197102273200, 153720368566435227528, 78367246720143449328, 37676560923145889100, 17061084191613232800, 7266758081613043600, 2906703232645217440, 1090013712241956540, 382460951663844400, 125288932441604200, 38223742100828400, 10830060261901380, 2840671544105280, 687259244541600, 152724276564800, 31022118677225, 5727160371180, 954526728530, 142466675900, 18855883575, 2186189400, 218618940, 18474840, 1282975, 70300, 2850, 76, 1]

/-- Row 77 of Pascal's triangle (A007318.cpp). -/
def row77 : List Nat := [1, 77, 2926, 73150, 1353275, 19757815, 237093780, 2404808340, 21042072975, 161322559475, 1096993404430, 6681687099710, 36749279048405, 183746395242025, 839983521106400, 3527930788646880, 13670731806006660, 49053802362729780, 163512674542432600, 507749884105448600, 1472474663905800940, 3996716944887173980, 10173461314258261040, 24327842273226276400, 54737645114759121900, 116043807643289338428, 232087615286578676856, 438387717763537500728, 782835210292031251300, 1322721562217570045300, 2116354499548112072480, 3208666499314879593760, 4612458092765139416030, 6289715581043371930950, 8139631928409069557700, 10000119226331142599460, 11666805764052999699370, 12928082062869540207410, 13608507434599516007800, 13608507434599516007800, 12928082062869540207410, 11666805764052999699370, 10000119226331142599460, 8139631928409069557700, 6289715581043371930950, 4612458092765139416030, 3208666499314879593760, 2116354499548112072480, 1322721562217570045300, 782835210292031251300, 438387717763537500728, 232087615286578676856, 116043807643289338428, 54737645114759121900, 24327842273226276400, 10173461314258261040, 3996716944887173980, 1472474663905800940, 507749884105448600, 163512674542432600, 49053802362729780, 13670731806006660, 3527930788646880, 839983521106400, 183746395242025, 36749279048405, 6681687099710, 1096993404430, 161322559475, 21042072975, 2404808340, 237093780, 19757815, 1353275, 73150, 2926, 77, 1]

/-- Row 78 of Pascal's triangle (A007318.cpp). -/
def row78 : List Nat := [1, 78, 3003, 76076, 1426425, 21111090, 256851595, 2641902120, 23446881315, 182364632450, 1258315963905, 7778680504140, 43430966148115, 220495674290430, 1023729916348425, 4367914309753280, 17198662594653540, 62724534168736440, 212566476905162380, 671262558647881200, 1980224548011249540, 5469191608792974920, 14170178259145435020, 34501303587484537440, 79065487387985398300, 170781452758048460328, 348131422929868015284, 670475333050116177584, 1221222928055568752028, 2105556772509601296600, 3439076061765682117780, 5325020998862991666240, 7821124592080019009790, 10902173673808511346980, 14429347509452441488650, 18139751154740212157160, 21666924990384142298830, 24594887826922539906780, 26536589497469056215210, 27217014869199032015600, 26536589497469056215210, 24594887826922539906780, 21666924990384142298830, 18139751154740212157160, 14429347509452441488650, 10902173673808511346980, 7821124592080019009790, 5325020998862991666240, 3439076061765682117780, 2105556772509601296600, 1221222928055568752028, 670475333050116177584, 348131422929868015284, 170781452758048460328, 79065487387985398300, 34501303587484537440, 14170178259145435020, 5469191608792974920, 1980224548011249540, 671262558647881200, 212566476905162380, 62724534168736440, 17198662594653540, 4367914309753280, 1023729916348425, 220495674290430, 43430966148115, 7778680504140, 1258315963905, 182364632450, 23446881315, 2641902120, 256851595, 21111090, 1426425, 76076, 3003, 78, 1]

/-- Row 79 of Pascal's triangle (A007318.cpp). -/
def row79 : List Nat := [1, 79, 3081, 79079, 1502501, 22537515, 277962685, 2898753715, 26088783435, 205811513765, 1440680596355, 9036996468045, 51209646652255, 263926640438545, 1244225590638855, 5391644226101705, 21566576904406820, 79923196763389980, 275291011073898820, 883829035553043580, 2651487106659130740, 7449416156804224460, 19639369867938409940, 48671481846629972460, 113566790975469935740, 249846940146033858628, 518912875687916475612, 1018606755979984192868, 1891698261105684929612, 3326779700565170048628, 5544632834275283414380, 8764097060628673784020, 13146145590943010676030, 18723298265888530356770, 25331521183260952835630, 32569098664192653645810, 39806676145124354455990, 46261812817306682205610, 51131477324391596121990, 53753604366668088230810, 53753604366668088230810, 51131477324391596121990, 46261812817306682205610, 39806676145124354455990, 32569098664192653645810, 25331521183260952835630, 18723298265888530356770, 13146145590943010676030, 8764097060628673784020, 5544632834275283414380, 3326779700565170048628, 1891698261105684929612, 1018606755979984192868, 518912875687916475612, 249846940146033858628, 113566790975469935740, 48671481846629972460, 19639369867938409940, 7449416156804224460, 2651487106659130740, 883829035553043580, 275291011073898820, 79923196763389980, 21566576904406820, 5391644226101705, 1244225590638855, 263926640438545, 51209646652255, 9036996468045, 1440680596355, 205811513765, 26088783435, 2898753715, 277962685, 22537515, 1502501, 79079, 3081, 79, 1]

/-- Row 80 of Pascal's triangle (A007318.cpp). -/
def row80 : List Nat := [1, 80, 3160, 82160, 1581580, 24040016, 300500200, 3176716400, 28987537150, 231900297200, 1646492110120, 10477677064400, 60246643120300, 315136287090800, 1508152231077400, 6635869816740560, 26958221130508525, 101489773667796800, 355214207837288800, 1159120046626942400, 3535316142212174320, 10100903263463355200, 27088786024742634400, 68310851714568382400, 162238272822099908200, 363413731121503794368, 768759815833950334240, 1537519631667900668480, 2910305017085669122480, 5218477961670854978240, 8871412534840453463008, 14308729894903957198400, 21910242651571684460050, 31869443856831541032800, 44054819449149483192400, 57900619847453606481440, 72375774809317008101800, 86068488962431036661600, 97393290141698278327600, 104885081691059684352800, 107507208733336176461620, 104885081691059684352800, 97393290141698278327600, 86068488962431036661600, 72375774809317008101800, 57900619847453606481440, 44054819449149483192400, 31869443856831541032800, 21910242651571684460050, 14308729894903957198400, 8871412534840453463008, 5218477961670854978240, 2910305017085669122480, 1537519631667900668480, 768759815833950334240, 363413731121503794368, 162238272822099908200, 68310851714568382400, 27088786024742634400, 10100903263463355200, 3535316142212174320, 1159120046626942400, 355214207837288800, 101489773667796800, 26958221130508525, 6635869816740560, 1508152231077400, 315136287090800, 60246643120300, 10477677064400, 1646492110120, 231900297200, 28987537150, 3176716400, 300500200, 24040016, 1581580, 82160, 3160, 80, 1]

/-- Row 81 of Pascal's triangle (A007318.cpp). -/
def row81 : List Nat := [1, 81, 3240, 85320, 1663740, 25621596, 324540216, 3477216600, 32164253550, 260887834350, 1878392407320, 12124169174520, 70724320184700, 375382930211100, 1823288518168200, 8144022047817960, 33594090947249085, 128447994798305325, 456703981505085600, 1514334254464231200, 4694436188839116720, 13636219405675529520, 37189689288205989600, 95399637739311016800, 230549124536668290600, 525652003943603702568, 1132173546955454128608, 2306279447501851002720, 4447824648753569790960, 8128782978756524100720, 14089890496511308441248, 23180142429744410661408, 36218972546475641658450, 53779686508403225492850, 75924263305981024225200, 101955439296603089673840, 130276394656770614583240, 158444263771748044763400, 183461779104129314989200, 202278371832757962680400, 212392290424395860814420, 212392290424395860814420, 202278371832757962680400, 183461779104129314989200, 158444263771748044763400, 130276394656770614583240, 101955439296603089673840, 75924263305981024225200, 53779686508403225492850, 36218972546475641658450, 23180142429744410661408, 14089890496511308441248, 8128782978756524100720, 4447824648753569790960, 2306279447501851002720, 1132173546955454128608, 525652003943603702568, 230549124536668290600, 95399637739311016800, 37189689288205989600, 13636219405675529520, 4694436188839116720, 1514334254464231200, 456703981505085600, 128447994798305325, 33594090947249085, 8144022047817960, 1823288518168200, 375382930211100, 70724320184700, 12124169174520, 1878392407320, 260887834350, 32164253550, 3477216600, 324540216, 25621596, 1663740, 85320, 3240, 81, 1]

/-- Row 82 of Pascal's triangle (A007318.cpp). -/
def row82 : List Nat := [1, 82, 3321, 88560, 1749060, 27285336, 350161812, 3801756816, 35641470150, 293052087900, 2139280241670, 14002561581840, 82848489359220, 446107250395800, 2198671448379300, 9967310565986160, 41738112995067045, 162042085745554410, 585151976303390925, 1971038235969316800, 6208770443303347920, 18330655594514646240, 50825908693881519120, 132589327027517006400, 325948762275979307400, 756201128480271993168, 1657825550899057831176, 3438452994457305131328, 6754104096255420793680, 12576607627510093891680, 22218673475267832541968, 37270032926255719102656, 59399114976220052319858, 89998659054878867151300, 129703949814384249718050, 177879702602584113899040, 232231833953373704257080, 288720658428518659346640, 341906042875877359752600, 385740150936887277669600, 414670662257153823494820, 424784580848791721628840, 414670662257153823494820, 385740150936887277669600, 341906042875877359752600, 288720658428518659346640, 232231833953373704257080, 177879702602584113899040, 129703949814384249718050, 89998659054878867151300, 59399114976220052319858, 37270032926255719102656, 22218673475267832541968, 12576607627510093891680, 6754104096255420793680, 3438452994457305131328, 1657825550899057831176, 756201128480271993168, 325948762275979307400, 132589327027517006400, 50825908693881519120, 18330655594514646240, 6208770443303347920, 1971038235969316800, 585151976303390925, 162042085745554410, 41738112995067045, 9967310565986160, 2198671448379300, 446107250395800, 82848489359220, 14002561581840, 2139280241670, 293052087900, 35641470150, 3801756816, 350161812, 27285336, 1749060, 88560, 3321, 82, 1]

/-- Row 83 of Pascal's triangle (A007318.cpp). -/
def row83 : List Nat := [1, 83, 3403, 91881, 1837620, 29034396, 377447148, 4151918628, 39443226966, 328693558050, 2432332329570, 16141841823510, 96851050941060, 528955739755020, 2644778698775100, 12165982014365460, 51705423561053205, 203780198740621455, 747194062048945335, 2556190212272707725, 8179808679272664720, 24539426037817994160, 69156564288396165360, 183415235721398525520, 458538089303496313800, 1082149890756251300568, 2414026679379329824344, 5096278545356362962504, 10192557090712725925008, 19330711723765514685360, 34795281102777926433648, 59488706401523551644624, 96669147902475771422514, 149397774031098919471158, 219702608869263116869350, 307583652416968363617090, 410111536555957818156120, 520952492381892363603720, 630626701304396019099240, 727646193812764637422200, 800410813194041101164420, 839455243105945545123660, 839455243105945545123660, 800410813194041101164420, 727646193812764637422200, 630626701304396019099240, 520952492381892363603720, 410111536555957818156120, 307583652416968363617090, 219702608869263116869350, 149397774031098919471158, 96669147902475771422514, 59488706401523551644624, 34795281102777926433648, 19330711723765514685360, 10192557090712725925008, 5096278545356362962504, 2414026679379329824344, 1082149890756251300568, 458538089303496313800, 183415235721398525520, 69156564288396165360, 24539426037817994160, 8179808679272664720, 2556190212272707725, 747194062048945335, 203780198740621455, 51705423561053205, 12165982014365460, 2644778698775100, 528955739755020, 96851050941060, 16141841823510, 2432332329570, 328693558050, 39443226966, 4151918628, 377447148, 29034396, 1837620, 91881, 3403, 83, 1]

/-- Row 84 of Pascal's triangle (A007318.cpp). -/
def row84 : List Nat := [1, 84, 3486, 95284, 1929501, 30872016, 406481544, 4529365776, 43595145594, 368136785016, 2761025887620, 18574174153080, 112992892764570, 625806790696080, 3173734438530120, 14810760713140560, 63871405575418665, 255485622301674660, 950974260789566790, 3303384274321653060, 10735998891545372445, 32719234717090658880, 93695990326214159520, 252571800009794690880, 641953325024894839320, 1540687980059747614368, 3496176570135581124912, 7510305224735692786848, 15288835636069088887512, 29523268814478240610368, 54125992826543441119008, 94283987504301478078272, 156157854303999323067138, 246066921933574690893672, 369100382900362036340508, 527286261286231480486440, 717695188972926181773210, 931064028937850181759840, 1151579193686288382702960, 1358272895117160656521440, 1528057007006805738586620, 1639866056299986646288080, 1678910486211891090247320, 1639866056299986646288080, 1528057007006805738586620, 1358272895117160656521440, 1151579193686288382702960, 931064028937850181759840, 717695188972926181773210, 527286261286231480486440, 369100382900362036340508, 246066921933574690893672, 156157854303999323067138, 94283987504301478078272, 54125992826543441119008, 29523268814478240610368, 15288835636069088887512, 7510305224735692786848, 3496176570135581124912, 1540687980059747614368, 641953325024894839320, 252571800009794690880, 93695990326214159520, 32719234717090658880, 10735998891545372445, 3303384274321653060, 950974260789566790, 255485622301674660, 63871405575418665, 14810760713140560, 3173734438530120, 625806790696080, 112992892764570, 18574174153080, 2761025887620, 368136785016, 43595145594, 4529365776, 406481544, 30872016, 1929501, 95284, 3486, 84, 1]

/-- Row 85 of Pascal's triangle (A007318.cpp). -/
def row85 : List Nat := [1, 85, 3570, 98770, 2024785, 32801517, 437353560, 4935847320, 48124511370, 411731930610, 3129162672636, 21335200040700, 131567066917650, 738799683460650, 3799541229226200, 17984495151670680, 78682166288559225, 319357027877093325, 1206459883091241450, 4254358535111219850, 14039383165867025505, 43455233608636031325, 126415225043304818400, 346267790336008850400, 894525125034689530200, 2182641305084642453688, 5036864550195328739280, 11006481794871273911760, 22799140860804781674360, 44812104450547329497880, 83649261641021681729376, 148409980330844919197280, 250441841808300801145410, 402224776237574013960810, 615167304833936727234180, 896386644186593516826948, 1244981450259157662259650, 1648759217910776363533050, 2082643222624138564462800, 2509852088803449039224400, 2886329902123966395108060, 3167923063306792384874700, 3318776542511877736535400, 3318776542511877736535400, 3167923063306792384874700, 2886329902123966395108060, 2509852088803449039224400, 2082643222624138564462800, 1648759217910776363533050, 1244981450259157662259650, 896386644186593516826948, 615167304833936727234180, 402224776237574013960810, 250441841808300801145410, 148409980330844919197280, 83649261641021681729376, 44812104450547329497880, 22799140860804781674360, 11006481794871273911760, 5036864550195328739280, 2182641305084642453688, 894525125034689530200, 346267790336008850400, 126415225043304818400, 43455233608636031325, 14039383165867025505, 4254358535111219850, 1206459883091241450, 319357027877093325, 78682166288559225, 17984495151670680, 3799541229226200, 738799683460650, 131567066917650, 21335200040700, 3129162672636, 411731930610, 48124511370, 4935847320, 437353560, 32801517, 2024785, 98770, 3570, 85, 1]

/-- Row 86 of Pascal's triangle (A007318.cpp). -/
def row86 : List Nat := [1, 86, 3655, 102340, 2123555, 34826302, 470155077, 5373200880, 53060358690, 459856441980, 3540894603246, 24464362713336, 152902266958350, 870366750378300, 4538340912686850, 21784036380896880, 96666661440229905, 398039194165652550, 1525816910968334775, 5460818418202461300, 18293741700978245355, 57494616774503056830, 169870458651940849725, 472683015379313668800, 1240792915370698380600, 3077166430119331983888, 7219505855279971192968, 16043346345066602651040, 33805622655676055586120, 67611245311352111172240, 128461366091569011227256, 232059241971866600926656, 398851822139145720342690, 652666618045874815106220, 1017392081071510741194990, 1511553949020530244061128, 2141368094445751179086598, 2893740668169934025792700, 3731402440534914927995850, 4592495311427587603687200, 5396181990927415434332460, 6054252965430758779982760, 6486699605818670121410100, 6637553085023755473070800, 6486699605818670121410100, 6054252965430758779982760, 5396181990927415434332460, 4592495311427587603687200, 3731402440534914927995850, 2893740668169934025792700, 2141368094445751179086598, 1511553949020530244061128, 1017392081071510741194990, 652666618045874815106220, 398851822139145720342690, 232059241971866600926656, 128461366091569011227256, 67611245311352111172240, 33805622655676055586120, 16043346345066602651040, 7219505855279971192968, 3077166430119331983888, 1240792915370698380600, 472683015379313668800, 169870458651940849725, 57494616774503056830, 18293741700978245355, 5460818418202461300, 1525816910968334775, 398039194165652550, 96666661440229905, 21784036380896880, 4538340912686850, 870366750378300, 152902266958350, 24464362713336, 3540894603246, 459856441980, 53060358690, 5373200880, 470155077, 34826302, 2123555, 102340, 3655, 86, 1]

/-- Row 87 of Pascal's triangle (A007318.cpp). -/
def row87 : List Nat := [1, 87, 3741, 105995, 2225895, 36949857, 504981379, 5843355957, 58433559570, 512916800670, 4000751045226, 28005257316582, 177366629671686, 1023269017336650, 5408707663065150, 26322377293583730, 118450697821126785, 494705855605882455, 1923856105133987325, 6986635329170796075, 23754560119180706655, 75788358475481302185, 227365075426443906555, 642553474031254518525, 1713475930750012049400, 4317959345490030364488, 10296672285399303176856, 23262852200346573844008, 49848969000742658237160, 101416867967028166758360, 196072611402921122399496, 360520608063435612153912, 630911064111012321269346, 1051518440185020535448910, 1670058699117385556301210, 2528946030092040985256118, 3652922043466281423147726, 5035108762615685204879298, 6625143108704848953788550, 8323897751962502531683050, 9988677302355003038019660, 11450434956358174214315220, 12540952571249428901392860, 13124252690842425594480900, 13124252690842425594480900, 12540952571249428901392860, 11450434956358174214315220, 9988677302355003038019660, 8323897751962502531683050, 6625143108704848953788550, 5035108762615685204879298, 3652922043466281423147726, 2528946030092040985256118, 1670058699117385556301210, 1051518440185020535448910, 630911064111012321269346, 360520608063435612153912, 196072611402921122399496, 101416867967028166758360, 49848969000742658237160, 23262852200346573844008, 10296672285399303176856, 4317959345490030364488, 1713475930750012049400, 642553474031254518525, 227365075426443906555, 75788358475481302185, 23754560119180706655, 6986635329170796075, 1923856105133987325, 494705855605882455, 118450697821126785, 26322377293583730, 5408707663065150, 1023269017336650, 177366629671686, 28005257316582, 4000751045226, 512916800670, 58433559570, 5843355957, 504981379, 36949857, 2225895, 105995, 3741, 87, 1]

/-- Row 88 of Pascal's triangle (A007318.cpp). -/
def row88 : List Nat := [1, 88, 3828, 109736, 2331890, 39175752, 541931236, 6348337336, 64276915527, 571350360240, 4513667845896, 32006008361808, 205371886988268, 1200635647008336, 6431976680401800, 31731084956648880, 144773075114710515, 613156553427009240, 2418561960739869780, 8910491434304783400, 30741195448351502730, 99542918594662008840, 303153433901925208740, 869918549457698425080, 2356029404781266567925, 6031435276240042413888, 14614631630889333541344, 33559524485745877020864, 73111821201089232081168, 151265836967770824995520, 297489479369949289157856, 556593219466356734553408, 991431672174447933423258, 1682429504296032856718256, 2721577139302406091750120, 4199004729209426541557328, 6181868073558322408403844, 8688030806081966628027024, 11660251871320534158667848, 14949040860667351485471600, 18312575054317505569702710, 21439112258713177252334880, 23991387527607603115708080, 25665205262091854495873760, 26248505381684851188961800, 25665205262091854495873760, 23991387527607603115708080, 21439112258713177252334880, 18312575054317505569702710, 14949040860667351485471600, 11660251871320534158667848, 8688030806081966628027024, 6181868073558322408403844, 4199004729209426541557328, 2721577139302406091750120, 1682429504296032856718256, 991431672174447933423258, 556593219466356734553408, 297489479369949289157856, 151265836967770824995520, 73111821201089232081168, 33559524485745877020864, 14614631630889333541344, 6031435276240042413888, 2356029404781266567925, 869918549457698425080, 303153433901925208740, 99542918594662008840, 30741195448351502730, 8910491434304783400, 2418561960739869780, 613156553427009240, 144773075114710515, 31731084956648880, 6431976680401800, 1200635647008336, 205371886988268, 32006008361808, 4513667845896, 571350360240, 64276915527, 6348337336, 541931236, 39175752, 2331890, 109736, 3828, 88, 1]

/-- Row 89 of Pascal's triangle (A007318.cpp). -/
def row89 : List Nat := [1, 89, 3916, 113564, 2441626, 41507642, 581106988, 6890268572, 70625252863, 635627275767, 5085018206136, 36519676207704, 237377895350076, 1406007533996604, 7632612327410136, 38163061637050680, 176504160071359395, 757929628541719755, 3031718514166879020, 11329053395044653180, 39651686882656286130, 130284114043013511570, 402696352496587217580, 1173071983359623633820, 3225947954238964993005, 8387464681021308981813, 20646066907129375955232, 48174156116635210562208, 106671345686835109102032, 224377658168860057076688, 448755316337720114153376, 854082698836306023711264, 1548024891640804667976666, 2673861176470480790141514, 4404006643598438948468376, 6920581868511832633307448, 10380872802767748949961172, 14869898879640289036430868, 20348282677402500786694872, 26609292731987885644139448, 33261615914984857055174310, 39751687313030682822037590, 45430499786320780368042960, 49656592789699457611581840, 51913710643776705684835560, 51913710643776705684835560, 49656592789699457611581840, 45430499786320780368042960, 39751687313030682822037590, 33261615914984857055174310, 26609292731987885644139448, 20348282677402500786694872, 14869898879640289036430868, 10380872802767748949961172, 6920581868511832633307448, 4404006643598438948468376, 2673861176470480790141514, 1548024891640804667976666, 854082698836306023711264, 448755316337720114153376, 224377658168860057076688, 106671345686835109102032, 48174156116635210562208, 20646066907129375955232, 8387464681021308981813, 3225947954238964993005, 1173071983359623633820, 402696352496587217580, 130284114043013511570, 39651686882656286130, 11329053395044653180, 3031718514166879020, 757929628541719755, 176504160071359395, 38163061637050680, 7632612327410136, 1406007533996604, 237377895350076, 36519676207704, 5085018206136, 635627275767, 70625252863, 6890268572, 581106988, 41507642, 2441626, 113564, 3916, 89, 1]

/-- Row 90 of Pascal's triangle (A007318.cpp). -/
def row90 : List Nat := [1, 90, 4005, 117480, 2555190, 43949268, 622614630, 7471375560, 77515521435, 706252528630, 5720645481903, 41604694413840, 273897571557780, 1643385429346680, 9038619861406740, 45795673964460816, 214667221708410075, 934433788613079150, 3789648142708598775, 14360771909211532200, 50980740277700939310, 169935800925669797700, 532980466539600729150, 1575768335856210851400, 4399019937598588626825, 11613412635260273974818, 29033531588150684937045, 68820223023764586517440, 154845501803470319664240, 331049003855695166178720, 673132974506580171230064, 1302838015174026137864640, 2402107590477110691687930, 4221886068111285458118180, 7077867820068919738609890, 11324588512110271581775824, 17301454671279581583268620, 25250771682408037986392040, 35218181557042789823125740, 46957575409390386430834320, 59870908646972742699313758, 73013303228015539877211900, 85182187099351463190080550, 95087092576020237979624800, 101570303433476163296417400, 103827421287553411369671120, 101570303433476163296417400, 95087092576020237979624800, 85182187099351463190080550, 73013303228015539877211900, 59870908646972742699313758, 46957575409390386430834320, 35218181557042789823125740, 25250771682408037986392040, 17301454671279581583268620, 11324588512110271581775824, 7077867820068919738609890, 4221886068111285458118180, 2402107590477110691687930, 1302838015174026137864640, 673132974506580171230064, 331049003855695166178720, 154845501803470319664240, 68820223023764586517440, 29033531588150684937045, 11613412635260273974818, 4399019937598588626825, 1575768335856210851400, 532980466539600729150, 169935800925669797700, 50980740277700939310, 14360771909211532200, 3789648142708598775, 934433788613079150, 214667221708410075, 45795673964460816, 9038619861406740, 1643385429346680, 273897571557780, 41604694413840, 5720645481903, 706252528630, 77515521435, 7471375560, 622614630, 43949268, 2555190, 117480, 4005, 90, 1]

/-- Row 91 of Pascal's triangle (A007318.cpp). -/
def row91 : List Nat := [1, 91, 4095, 121485, 2672670, 46504458, 666563898, 8093990190, 84986896995, 783768050065, 6426898010533, 47325339895743, 315502265971620, 1917283000904460, 10682005290753420, 54834293825867556, 260462895672870891, 1149101010321489225, 4724081931321677925, 18150420051920130975, 65341512186912471510, 220916541203370737010, 702916267465270526850, 2108748802395811580550, 5974788273454799478225, 16012432572858862601643, 40646944223410958911863, 97853754611915271454485, 223665724827234906181680, 485894505659165485842960, 1004181978362275337408784, 1975970989680606309094704, 3704945605651136829552570, 6623993658588396149806110, 11299753888180205196728070, 18402456332179191320385714, 28626043183389853165044444, 42552226353687619569660660, 60468953239450827809517780, 82175756966433176253960060, 106828484056363129130148078, 132884211874988282576525658, 158195490327367003067292450, 180269279675371701169705350, 196657396009496401276042200, 205397724721029574666088520, 205397724721029574666088520, 196657396009496401276042200, 180269279675371701169705350, 158195490327367003067292450, 132884211874988282576525658, 106828484056363129130148078, 82175756966433176253960060, 60468953239450827809517780, 42552226353687619569660660, 28626043183389853165044444, 18402456332179191320385714, 11299753888180205196728070, 6623993658588396149806110, 3704945605651136829552570, 1975970989680606309094704, 1004181978362275337408784, 485894505659165485842960, 223665724827234906181680, 97853754611915271454485, 40646944223410958911863, 16012432572858862601643, 5974788273454799478225, 2108748802395811580550, 702916267465270526850, 220916541203370737010, 65341512186912471510, 18150420051920130975, 4724081931321677925, 1149101010321489225, 260462895672870891, 54834293825867556, 10682005290753420, 1917283000904460, 315502265971620, 47325339895743, 6426898010533, 783768050065, 84986896995, 8093990190, 666563898, 46504458, 2672670, 121485, 4095, 91, 1]

/-- Row 92 of Pascal's triangle (A007318.cpp). -/
def row92 : List Nat := [1, 92, 4186, 125580, 2794155, 49177128, 713068356, 8760554088, 93080887185, 868754947060, 7210666060598, 53752237906276, 362827605867363, 2232785266876080, 12599288291657880, 65516299116620976, 315297189498738447, 1409563905994360116, 5873182941643167150, 22874501983241808900, 83491932238832602485, 286258053390283208520, 923832808668641263860, 2811665069861082107400, 8083537075850611058775, 21987220846313662079868, 56659376796269821513506, 138500698835326230366348, 321519479439150177636165, 709560230486400392024640, 1490076484021440823251744, 2980152968042881646503488, 5680916595331743138647274, 10328939264239532979358680, 17923747546768601346534180, 29702210220359396517113784, 47028499515569044485430158, 71178269537077472734705104, 103021179593138447379178440, 142644710205884004063477840, 189004241022796305384108138, 239712695931351411706673736, 291079702202355285643818108, 338464770002738704236997800, 376926675684868102445747550, 402055120730525975942130720, 410795449442059149332177040, 402055120730525975942130720, 376926675684868102445747550, 338464770002738704236997800, 291079702202355285643818108, 239712695931351411706673736, 189004241022796305384108138, 142644710205884004063477840, 103021179593138447379178440, 71178269537077472734705104, 47028499515569044485430158, 29702210220359396517113784, 17923747546768601346534180, 10328939264239532979358680, 5680916595331743138647274, 2980152968042881646503488, 1490076484021440823251744, 709560230486400392024640, 321519479439150177636165, 138500698835326230366348, 56659376796269821513506, 21987220846313662079868, 8083537075850611058775, 2811665069861082107400, 923832808668641263860, 286258053390283208520, 83491932238832602485, 22874501983241808900, 5873182941643167150, 1409563905994360116, 315297189498738447, 65516299116620976, 12599288291657880, 2232785266876080, 362827605867363, 53752237906276, 7210666060598, 868754947060, 93080887185, 8760554088, 713068356, 49177128, 2794155, 125580, 4186, 92, 1]

/-- Row 93 of Pascal's triangle (A007318.cpp). -/
def row93 : List Nat := [1, 93, 4278, 129766, 2919735, 51971283, 762245484, 9473622444, 101841441273, 961835834245, 8079421007658, 60962903966874, 416579843773639, 2595612872743443, 14832073558533960, 78115587408278856, 380813488615359423, 1724861095493098563, 7282746847637527266, 28747684924884976050, 106366434222074411385, 369749985629115811005, 1210090862058924472380, 3735497878529723371260, 10895202145711693166175, 30070757922164273138643, 78646597642583483593374, 195160075631596051879854, 460020178274476408002513, 1031079709925550569660805, 2199636714507841215276384, 4470229452064322469755232, 8661069563374624785150762, 16009855859571276118005954, 28252686811008134325892860, 47625957767127997863647964, 76730709735928441002543942, 118206769052646517220135262, 174199449130215920113883544, 245665889799022451442656280, 331648951228680309447585978, 428716936954147717090781874, 530792398133706697350491844, 629544472205093989880815908, 715391445687606806682745350, 778981796415394078387878270, 812850570172585125274307760, 812850570172585125274307760, 778981796415394078387878270, 715391445687606806682745350, 629544472205093989880815908, 530792398133706697350491844, 428716936954147717090781874, 331648951228680309447585978, 245665889799022451442656280, 174199449130215920113883544, 118206769052646517220135262, 76730709735928441002543942, 47625957767127997863647964, 28252686811008134325892860, 16009855859571276118005954, 8661069563374624785150762, 4470229452064322469755232, 2199636714507841215276384, 1031079709925550569660805, 460020178274476408002513, 195160075631596051879854, 78646597642583483593374, 30070757922164273138643, 10895202145711693166175, 3735497878529723371260, 1210090862058924472380, 369749985629115811005, 106366434222074411385, 28747684924884976050, 7282746847637527266, 1724861095493098563, 380813488615359423, 78115587408278856, 14832073558533960, 2595612872743443, 416579843773639, 60962903966874, 8079421007658, 961835834245, 101841441273, 9473622444, 762245484, 51971283, 2919735, 129766, 4278, 93, 1]

/-- Row 94 of Pascal's triangle (A007318.cpp). -/
def row94 : List Nat := [1, 94, 4371, 134044, 3049501, 54891018, 814216767, 10235867928, 111315063717, 1063677275518, 9041256841903, 69042324974532, 477542747740513, 3012192716517082, 17427686431277403, 92947660966812816, 458929076023638279, 2105674584108457986, 9007607943130625829, 36030431772522503316, 135114119146959387435, 476116419851190222390, 1579840847688040283385, 4945588740588647843640, 14630700024241416537435, 40965960067875966304818, 108717355564747756732017, 273806673274179535473228, 655180253906072459882367, 1491099888200026977663318, 3230716424433391784937189, 6669866166572163685031616, 13131299015438947254905994, 24670925422945900903156716, 44262542670579410443898814, 75878644578136132189540824, 124356667503056438866191906, 194937478788574958222679204, 292406218182862437334018806, 419865338929238371556539824, 577314841027702760890242258, 760365888182828026538367852, 959509335087854414441273718, 1160336870338800687231307752, 1344935917892700796563561258, 1494373242103000885070623620, 1591832366587979203662186030, 1625701140345170250548615520, 1591832366587979203662186030, 1494373242103000885070623620, 1344935917892700796563561258, 1160336870338800687231307752, 959509335087854414441273718, 760365888182828026538367852, 577314841027702760890242258, 419865338929238371556539824, 292406218182862437334018806, 194937478788574958222679204, 124356667503056438866191906, 75878644578136132189540824, 44262542670579410443898814, 24670925422945900903156716, 13131299015438947254905994, 6669866166572163685031616, 3230716424433391784937189, 1491099888200026977663318, 655180253906072459882367, 273806673274179535473228, 108717355564747756732017, 40965960067875966304818, 14630700024241416537435, 4945588740588647843640, 1579840847688040283385, 476116419851190222390, 135114119146959387435, 36030431772522503316, 9007607943130625829, 2105674584108457986, 458929076023638279, 92947660966812816, 17427686431277403, 3012192716517082, 477542747740513, 69042324974532, 9041256841903, 1063677275518, 111315063717, 10235867928, 814216767, 54891018, 3049501, 134044, 4371, 94, 1]

/-- Row 95 of Pascal's triangle (A007318.cpp). -/
def row95 : List Nat := [1, 95, 4465, 138415, 3183545, 57940519, 869107785, 11050084695, 121550931645, 1174992339235, 10104934117421, 78083581816435, 546585072715045, 3489735464257595, 20439879147794485, 110375347398090219, 551876736990451095, 2564603660132096265, 11113282527239083815, 45038039715653129145, 171144550919481890751, 611230538998149609825, 2055957267539230505775, 6525429588276688127025, 19576288764830064381075, 55596660092117382842253, 149683315632623723036835, 382524028838927292205245, 928986927180251995355595, 2146280142106099437545685, 4721816312633418762600507, 9900582591005555469968805, 19801165182011110939937610, 37802224438384848158062710, 68933468093525311347055530, 120141187248715542633439638, 200235312081192571055732730, 319294146291631397088871110, 487343696971437395556698010, 712271557112100808890558630, 997180179956941132446782082, 1337680729210530787428610110, 1719875223270682440979641570, 2119846205426655101672581470, 2505272788231501483794869010, 2839309159995701681634184878, 3086205608690980088732809650, 3217533506933149454210801550, 3217533506933149454210801550, 3086205608690980088732809650, 2839309159995701681634184878, 2505272788231501483794869010, 2119846205426655101672581470, 1719875223270682440979641570, 1337680729210530787428610110, 997180179956941132446782082, 712271557112100808890558630, 487343696971437395556698010, 319294146291631397088871110, 200235312081192571055732730, 120141187248715542633439638, 68933468093525311347055530, 37802224438384848158062710, 19801165182011110939937610, 9900582591005555469968805, 4721816312633418762600507, 2146280142106099437545685, 928986927180251995355595, 382524028838927292205245, 149683315632623723036835, 55596660092117382842253, 19576288764830064381075, 6525429588276688127025, 2055957267539230505775, 611230538998149609825, 171144550919481890751, 45038039715653129145, 11113282527239083815, 2564603660132096265, 551876736990451095, 110375347398090219, 20439879147794485, 3489735464257595, 546585072715045, 78083581816435, 10104934117421, 1174992339235, 121550931645, 11050084695, 869107785, 57940519, 3183545, 138415, 4465, 95, 1]

/-- Row 96 of Pascal's triangle (A007318.cpp). -/
def row96 : List Nat := [1, 96, 4560, 142880, 3321960, 61124064, 927048304, 11919192480, 132601016340, 1296543270880, 11279926456656, 88188515933856, 624668654531480, 4036320536972640, 23929614612052080, 130815226545884704, 662252084388541314, 3116480397122547360, 13677886187371180080, 56151322242892212960, 216182590635135019896, 782375089917631500576, 2667187806537380115600, 8581386855815918632800, 26101718353106752508100, 75172948856947447223328, 205279975724741105879088, 532207344471551015242080, 1311510956019179287560840, 3075267069286351432901280, 6868096454739518200146192, 14622398903638974232569312, 29701747773016666409906415, 57603389620395959098000320, 106735692531910159505118240, 189074655342240853980495168, 320376499329908113689172368, 519529458372823968144603840, 806637843263068792645569120, 1199615254083538204447256640, 1709451737069041941337340712, 2334860909167471919875392192, 3057555952481213228408251680, 3839721428697337542652223040, 4625118993658156585467450480, 5344581948227203165429053888, 5925514768686681770366994528, 6303739115624129542943611200, 6435067013866298908421603100, 6303739115624129542943611200, 5925514768686681770366994528, 5344581948227203165429053888, 4625118993658156585467450480, 3839721428697337542652223040, 3057555952481213228408251680, 2334860909167471919875392192, 1709451737069041941337340712, 1199615254083538204447256640, 806637843263068792645569120, 519529458372823968144603840, 320376499329908113689172368, 189074655342240853980495168, 106735692531910159505118240, 57603389620395959098000320, 29701747773016666409906415, 14622398903638974232569312, 6868096454739518200146192, 3075267069286351432901280, 1311510956019179287560840, 532207344471551015242080, 205279975724741105879088, 75172948856947447223328, 26101718353106752508100, 8581386855815918632800, 2667187806537380115600, 782375089917631500576, 216182590635135019896, 56151322242892212960, 13677886187371180080, 3116480397122547360, 662252084388541314, 130815226545884704, 23929614612052080, 4036320536972640, 624668654531480, 88188515933856, 11279926456656, 1296543270880, 132601016340, 11919192480, 927048304, 61124064, 3321960, 142880, 4560, 96, 1]

/-- Row 97 of Pascal's triangle (A007318.cpp). -/
def row97 : List Nat := [1, 97, 4656, 147440, 3464840, 64446024, 988172368, 12846240784, 144520208820, 1429144287220, 12576469727536, 99468442390512, 712857170465336, 4660989191504120, 27965935149024720, 154744841157936784, 793067310934426018, 3778732481511088674, 16794366584493727440, 69829208430263393040, 272333912878027232856, 998557680552766520472, 3449562896455011616176, 11248574662353298748400, 34683105208922671140900, 101274667210054199731428, 280452924581688553102416, 737487320196292121121168, 1843718300490730302802920, 4386778025305530720462120, 9943363524025869633047472, 21490495358378492432715504, 44324146676655640642475727, 87305137393412625507906735, 164339082152306118603118560, 295810347874151013485613408, 509451154672148967669667536, 839905957702732081833776208, 1326167301635892760790172960, 2006253097346606997092825760, 2909066991152580145784597352, 4044312646236513861212732904, 5392416861648685148283643872, 6897277381178550771060474720, 8464840422355494128119673520, 9969700941885359750896504368, 11270096716913884935796048416, 12229253884310811313310605728, 12738806129490428451365214300, 12738806129490428451365214300, 12229253884310811313310605728, 11270096716913884935796048416, 9969700941885359750896504368, 8464840422355494128119673520, 6897277381178550771060474720, 5392416861648685148283643872, 4044312646236513861212732904, 2909066991152580145784597352, 2006253097346606997092825760, 1326167301635892760790172960, 839905957702732081833776208, 509451154672148967669667536, 295810347874151013485613408, 164339082152306118603118560, 87305137393412625507906735, 44324146676655640642475727, 21490495358378492432715504, 9943363524025869633047472, 4386778025305530720462120, 1843718300490730302802920, 737487320196292121121168, 280452924581688553102416, 101274667210054199731428, 34683105208922671140900, 11248574662353298748400, 3449562896455011616176, 998557680552766520472, 272333912878027232856, 69829208430263393040, 16794366584493727440, 3778732481511088674, 793067310934426018, 154744841157936784, 27965935149024720, 4660989191504120, 712857170465336, 99468442390512, 12576469727536, 1429144287220, 144520208820, 12846240784, 988172368, 64446024, 3464840, 147440, 4656, 97, 1]

/-- Row 98 of Pascal's triangle (A007318.cpp). -/
def row98 : List Nat := [1, 98, 4753, 152096, 3612280, 67910864, 1052618392, 13834413152, 157366449604, 1573664496040, 14005614014756, 112044912118048, 812325612855848, 5373846361969456, 32626924340528840, 182710776306961504, 947812152092362802, 4571799792445514692, 20573099066004816114, 86623575014757120480, 342163121308290625896, 1270891593430793753328, 4448120577007778136648, 14698137558808310364576, 45931679871275969889300, 135957772418976870872328, 381727591791742752833844, 1017940244777980674223584, 2581205620687022423924088, 6230496325796261023265040, 14330141549331400353509592, 31433858882404362065762976, 65814642035034133075191231, 131629284070068266150382462, 251644219545718744111025295, 460149430026457132088731968, 805261502546299981155280944, 1349357112374881049503443744, 2166073259338624842623949168, 3332420398982499757882998720, 4915320088499187142877423112, 6953379637389094006997330256, 9436729507885199009496376776, 12289694242827235919344118592, 15362117803534044899180148240, 18434541364240853879016177888, 21239797658799244686692552784, 23499350601224696249106654144, 24968060013801239764675820028, 25477612258980856902730428600, 24968060013801239764675820028, 23499350601224696249106654144, 21239797658799244686692552784, 18434541364240853879016177888, 15362117803534044899180148240, 12289694242827235919344118592, 9436729507885199009496376776, 6953379637389094006997330256, 4915320088499187142877423112, 3332420398982499757882998720, 2166073259338624842623949168, 1349357112374881049503443744, 805261502546299981155280944, 460149430026457132088731968, 251644219545718744111025295, 131629284070068266150382462, 65814642035034133075191231, 31433858882404362065762976, 14330141549331400353509592, 6230496325796261023265040, 2581205620687022423924088, 1017940244777980674223584, 381727591791742752833844, 135957772418976870872328, 45931679871275969889300, 14698137558808310364576, 4448120577007778136648, 1270891593430793753328, 342163121308290625896, 86623575014757120480, 20573099066004816114, 4571799792445514692, 947812152092362802, 182710776306961504, 32626924340528840, 5373846361969456, 812325612855848, 112044912118048, 14005614014756, 1573664496040, 157366449604, 13834413152, 1052618392, 67910864, 3612280, 152096, 4753, 98, 1]

/-- Row 99 of Pascal's triangle (A007318.cpp). -/
def row99 : List Nat := [1, 99, 4851, 156849, 3764376, 71523144, 1120529256, 14887031544, 171200862756, 1731030945644, 15579278510796, 126050526132804, 924370524973896, 6186171974825304, 38000770702498296, 215337700647490344, 1130522928399324306, 5519611944537877494, 25144898858450330806, 107196674080761936594, 428786696323047746376, 1613054714739084379224, 5719012170438571889976, 19146258135816088501224, 60629817430084280253876, 181889452290252840761628, 517685364210719623706172, 1399667836569723427057428, 3599145865465003098147672, 8811701946483283447189128, 20560637875127661376774632, 45764000431735762419272568, 97248500917438495140954207, 197443926105102399225573693, 383273503615787010261407757, 711793649572175876199757263, 1265410932572757113244012912, 2154618614921181030658724688, 3515430371713505892127392912, 5498493658321124600506947888, 8247740487481686900760421832, 11868699725888281149874753368, 16390109145274293016493707032, 21726423750712434928840495368, 27651812046361280818524266832, 33796659167774898778196326128, 39674339023040098565708730672, 44739148260023940935799206928, 48467410615025936013782474172, 50445672272782096667406248628, 50445672272782096667406248628, 48467410615025936013782474172, 44739148260023940935799206928, 39674339023040098565708730672, 33796659167774898778196326128, 27651812046361280818524266832, 21726423750712434928840495368, 16390109145274293016493707032, 11868699725888281149874753368, 8247740487481686900760421832, 5498493658321124600506947888, 3515430371713505892127392912, 2154618614921181030658724688, 1265410932572757113244012912, 711793649572175876199757263, 383273503615787010261407757, 197443926105102399225573693, 97248500917438495140954207, 45764000431735762419272568, 20560637875127661376774632, 8811701946483283447189128, 3599145865465003098147672, 1399667836569723427057428, 517685364210719623706172, 181889452290252840761628, 60629817430084280253876, 19146258135816088501224, 5719012170438571889976, 1613054714739084379224, 428786696323047746376, 107196674080761936594, 25144898858450330806, 5519611944537877494, 1130522928399324306, 215337700647490344, 38000770702498296, 6186171974825304, 924370524973896, 126050526132804, 15579278510796, 1731030945644, 171200862756, 14887031544, 1120529256, 71523144, 3764376, 156849, 4851, 99, 1]

/-- Row 100 of Pascal's triangle (A007318.cpp). -/
def row100 : List Nat := [1, 100, 4950, 161700, 3921225, 75287520, 1192052400, 16007560800, 186087894300, 1902231808400, 17310309456440, 141629804643600, 1050421051106700, 7110542499799200, 44186942677323600, 253338471349988640, 1345860629046814650, 6650134872937201800, 30664510802988208300, 132341572939212267400, 535983370403809682970, 2041841411062132125600, 7332066885177656269200, 24865270306254660391200, 79776075565900368755100, 242519269720337121015504, 699574816500972464467800, 1917353200780443050763600, 4998813702034726525205100, 12410847811948286545336800, 29372339821610944823963760, 66324638306863423796047200, 143012501349174257560226775, 294692427022540894366527900, 580717429720889409486981450, 1095067153187962886461165020, 1977204582144932989443770175, 3420029547493938143902737600, 5670048986634686922786117600, 9013924030034630492634340800, 13746234145802811501267369720, 20116440213369968050635175200, 28258808871162574166368460400, 38116532895986727945334202400, 49378235797073715747364762200, 61448471214136179596720592960, 73470998190814997343905056800, 84413487283064039501507937600, 93206558875049876949581681100, 98913082887808032681188722800, 100891344545564193334812497256, 98913082887808032681188722800, 93206558875049876949581681100, 84413487283064039501507937600, 73470998190814997343905056800, 61448471214136179596720592960, 49378235797073715747364762200, 38116532895986727945334202400, 28258808871162574166368460400, 20116440213369968050635175200, 13746234145802811501267369720, 9013924030034630492634340800, 5670048986634686922786117600, 3420029547493938143902737600, 1977204582144932989443770175, 1095067153187962886461165020, 580717429720889409486981450, 294692427022540894366527900, 143012501349174257560226775, 66324638306863423796047200, 29372339821610944823963760, 12410847811948286545336800, 4998813702034726525205100, 1917353200780443050763600, 699574816500972464467800, 242519269720337121015504, 79776075565900368755100, 24865270306254660391200, 7332066885177656269200, 2041841411062132125600, 535983370403809682970, 132341572939212267400, 30664510802988208300, 6650134872937201800, 1345860629046814650, 253338471349988640, 44186942677323600, 7110542499799200, 1050421051106700, 141629804643600, 17310309456440, 1902231808400, 186087894300, 16007560800, 1192052400, 75287520, 3921225, 161700, 4950, 100, 1]

/-- Row 101 of Pascal's triangle (A007318.cpp). -/
def row101 : List Nat := [1, 101, 5050, 166650, 4082925, 79208745, 1267339920, 17199613200, 202095455100, 2088319702700, 19212541264840, 158940114100040, 1192050855750300, 8160963550905900, 51297485177122800, 297525414027312240, 1599199100396803290, 7995995501984016450, 37314645675925410100, 163006083742200475700, 668324943343021950370, 2577824781465941808570, 9373908296239788394800, 32197337191432316660400, 104641345872155029146300, 322295345286237489770604, 942094086221309585483304, 2616928017281415515231400, 6916166902815169575968700, 17409661513983013070541900, 41783187633559231369300560, 95696978128474368620010960, 209337139656037681356273975, 437704928371715151926754675, 875409856743430303853509350, 1675784582908852295948146470, 3072271735332895875904935195, 5397234129638871133346507775, 9090078534128625066688855200, 14683973016669317415420458400, 22760158175837441993901710520, 33862674359172779551902544920, 48375249084532542217003635600, 66375341767149302111702662800, 87494768693060443692698964600, 110826707011209895344085355160, 134919469404951176940625649760, 157884485473879036845412994400, 177620046158113916451089618700, 192119641762857909630770403900, 199804427433372226016001220056, 199804427433372226016001220056, 192119641762857909630770403900, 177620046158113916451089618700, 157884485473879036845412994400, 134919469404951176940625649760, 110826707011209895344085355160, 87494768693060443692698964600, 66375341767149302111702662800, 48375249084532542217003635600, 33862674359172779551902544920, 22760158175837441993901710520, 14683973016669317415420458400, 9090078534128625066688855200, 5397234129638871133346507775, 3072271735332895875904935195, 1675784582908852295948146470, 875409856743430303853509350, 437704928371715151926754675, 209337139656037681356273975, 95696978128474368620010960, 41783187633559231369300560, 17409661513983013070541900, 6916166902815169575968700, 2616928017281415515231400, 942094086221309585483304, 322295345286237489770604, 104641345872155029146300, 32197337191432316660400, 9373908296239788394800, 2577824781465941808570, 668324943343021950370, 163006083742200475700, 37314645675925410100, 7995995501984016450, 1599199100396803290, 297525414027312240, 51297485177122800, 8160963550905900, 1192050855750300, 158940114100040, 19212541264840, 2088319702700, 202095455100, 17199613200, 1267339920, 79208745, 4082925, 166650, 5050, 101, 1]

/-- Row 102 of Pascal's triangle (A007318.cpp). -/
def row102 : List Nat := [1, 102, 5151, 171700, 4249575, 83291670, 1346548665, 18466953120, 219295068300, 2290415157800, 21300860967540, 178152655364880, 1350990969850340, 9353014406656200, 59458448728028700, 348822899204435040, 1896724514424115530, 9595194602380819740, 45310641177909426550, 200320729418125885800, 831331027085222426070, 3246149724808963758940, 11951733077705730203370, 41571245487672105055200, 136838683063587345806700, 426936691158392518916904, 1264389431507547075253908, 3559022103502725100714704, 9533094920096585091200100, 24325828416798182646510600, 59192849147542244439842460, 137480165762033599989311520, 305034117784512049976284935, 647042068027752833283028650, 1313114785115145455780264025, 2551194439652282599801655820, 4748056318241748171853081665, 8469505864971767009251442970, 14487312663767496200035362975, 23774051550797942482109313600, 37444131192506759409322168920, 56622832535010221545804255440, 82237923443705321768906180520, 114750590851681844328706298400, 153870110460209745804401627400, 198321475704270339036784319760, 245746176416161072284711004920, 292803954878830213786038644160, 335504531631992953296502613100, 369739687920971826081860022600, 391924069196230135646771623956, 399608854866744452032002440112, 391924069196230135646771623956, 369739687920971826081860022600, 335504531631992953296502613100, 292803954878830213786038644160, 245746176416161072284711004920, 198321475704270339036784319760, 153870110460209745804401627400, 114750590851681844328706298400, 82237923443705321768906180520, 56622832535010221545804255440, 37444131192506759409322168920, 23774051550797942482109313600, 14487312663767496200035362975, 8469505864971767009251442970, 4748056318241748171853081665, 2551194439652282599801655820, 1313114785115145455780264025, 647042068027752833283028650, 305034117784512049976284935, 137480165762033599989311520, 59192849147542244439842460, 24325828416798182646510600, 9533094920096585091200100, 3559022103502725100714704, 1264389431507547075253908, 426936691158392518916904, 136838683063587345806700, 41571245487672105055200, 11951733077705730203370, 3246149724808963758940, 831331027085222426070, 200320729418125885800, 45310641177909426550, 9595194602380819740, 1896724514424115530, 348822899204435040, 59458448728028700, 9353014406656200, 1350990969850340, 178152655364880, 21300860967540, 2290415157800, 219295068300, 18466953120, 1346548665, 83291670, 4249575, 171700, 5151, 102, 1]

/-- Row 103 of Pascal's triangle (A007318.cpp). -/
def row103 : List Nat := [1, 103, 5253, 176851, 4421275, 87541245, 1429840335, 19813501785, 237762021420, 2509710226100, 23591276125340, 199453516332420, 1529143625215220, 10704005376506540, 68811463134684900, 408281347932463740, 2245547413628550570, 11491919116804935270, 54905835780290246290, 245631370596035312350, 1031651756503348311870, 4077480751894186185010, 15197882802514693962310, 53522978565377835258570, 178409928551259450861900, 563775374221979864723604, 1691326122665939594170812, 4823411535010272175968612, 13092117023599310191914804, 33858923336894767737710700, 83518677564340427086353060, 196673014909575844429153980, 442514283546545649965596455, 952076185812264883259313585, 1960156853142898289063292675, 3864309224767428055581919845, 7299250757894030771654737485, 13217562183213515181104524635, 22956818528739263209286805945, 38261364214565438682144676575, 61218182743304701891431482520, 94066963727516980955126424360, 138860755978715543314710435960, 196988514295387166097612478920, 268620701311891590133107925800, 352191586164480084841185947160, 444067652120431411321495324680, 538550131294991286070749649080, 628308486510823167082541257260, 705244219552964779378362635700, 761663757117201961728631646556, 791532924062974587678774064068, 791532924062974587678774064068, 761663757117201961728631646556, 705244219552964779378362635700, 628308486510823167082541257260, 538550131294991286070749649080, 444067652120431411321495324680, 352191586164480084841185947160, 268620701311891590133107925800, 196988514295387166097612478920, 138860755978715543314710435960, 94066963727516980955126424360, 61218182743304701891431482520, 38261364214565438682144676575, 22956818528739263209286805945, 13217562183213515181104524635, 7299250757894030771654737485, 3864309224767428055581919845, 1960156853142898289063292675, 952076185812264883259313585, 442514283546545649965596455, 196673014909575844429153980, 83518677564340427086353060, 33858923336894767737710700, 13092117023599310191914804, 4823411535010272175968612, 1691326122665939594170812, 563775374221979864723604, 178409928551259450861900, 53522978565377835258570, 15197882802514693962310, 4077480751894186185010, 1031651756503348311870, 245631370596035312350, 54905835780290246290, 11491919116804935270, 2245547413628550570, 408281347932463740, 68811463134684900, 10704005376506540, 1529143625215220, 199453516332420, 23591276125340, 2509710226100, 237762021420, 19813501785, 1429840335, 87541245, 4421275, 176851, 5253, 103, 1]

/-- Row 104 of Pascal's triangle (A007318.cpp). -/
def row104 : List Nat := [1, 104, 5356, 182104, 4598126, 91962520, 1517381580, 21243342120, 257575523205, 2747472247520, 26100986351440, 223044792457760, 1728597141547640, 12233149001721760, 79515468511191440, 477092811067148640, 2653828761561014310, 13737466530433485840, 66397754897095181560, 300537206376325558640, 1277283127099383624220, 5109132508397534496880, 19275363554408880147320, 68720861367892529220880, 231932907116637286120470, 742185302773239315585504, 2255101496887919458894416, 6514737657676211770139424, 17915528558609582367883416, 46951040360494077929625504, 117377600901235194824063760, 280191692473916271515507040, 639187298456121494394750435, 1394590469358810533224910040, 2912233038955163172322606260, 5824466077910326344645212520, 11163559982661458827236657330, 20516812941107545952759262120, 36174380711952778390391330580, 61218182743304701891431482520, 99479546957870140573576159095, 155285146470821682846557906880, 232927719706232524269836860320, 335849270274102709412322914880, 465609215607278756230720404720, 620812287476371674974293872960, 796259238284911496162681271840, 982617783415422697392244973760, 1166858617805814453153290906340, 1333552706063787946460903892960, 1466907976670166741106994282256, 1553196681180176549407405710624, 1583065848125949175357548128136, 1553196681180176549407405710624, 1466907976670166741106994282256, 1333552706063787946460903892960, 1166858617805814453153290906340, 982617783415422697392244973760, 796259238284911496162681271840, 620812287476371674974293872960, 465609215607278756230720404720, 335849270274102709412322914880, 232927719706232524269836860320, 155285146470821682846557906880, 99479546957870140573576159095, 61218182743304701891431482520, 36174380711952778390391330580, 20516812941107545952759262120, 11163559982661458827236657330, 5824466077910326344645212520, 2912233038955163172322606260, 1394590469358810533224910040, 639187298456121494394750435, 280191692473916271515507040, 117377600901235194824063760, 46951040360494077929625504, 17915528558609582367883416, 6514737657676211770139424, 2255101496887919458894416, 742185302773239315585504, 231932907116637286120470, 68720861367892529220880, 19275363554408880147320, 5109132508397534496880, 1277283127099383624220, 300537206376325558640, 66397754897095181560, 13737466530433485840, 2653828761561014310, 477092811067148640, 79515468511191440, 12233149001721760, 1728597141547640, 223044792457760, 26100986351440, 2747472247520, 257575523205, 21243342120, 1517381580, 91962520, 4598126, 182104, 5356, 104, 1]

/-- Row 105 of Pascal's triangle (A007318.cpp). -/
def row105 : List Nat := [1, 105, 5460, 187460, 4780230, 96560646, 1609344100, 22760723700, 278818865325, 3005047770725, 28848458598960, 249145778809200, 1951641934005400, 13961746143269400, 91748617512913200, 556608279578340080, 3130921572628162950, 16391295291994500150, 80135221427528667400, 366934961273420740200, 1577820333475709182860, 6386415635496918121100, 24384496062806414644200, 87996224922301409368200, 300653768484529815341350, 974118209889876601705974, 2997286799661158774479920, 8769839154564131229033840, 24430266216285794138022840, 64866568919103660297508920, 164328641261729272753689264, 397569293375151466339570800, 919378990930037765910257475, 2033777767814932027619660475, 4306823508313973705547516300, 8736699116865489516967818780, 16988026060571785171881869850, 31680372923769004779995919450, 56691193653060324343150592700, 97392563455257480281822813100, 160697729701174842465007641615, 254764693428691823420134065975, 388212866177054207116394767200, 568776989980335233682159775200, 801458485881381465643043319600, 1086421503083650431205014277680, 1417071525761283171136975144800, 1778877021700334193554926245600, 2149476401221237150545535880100, 2500411323869602399614194799300, 2800460682733954687567898175216, 3020104657850343290514399992880, 3136262529306125724764953838760, 3136262529306125724764953838760, 3020104657850343290514399992880, 2800460682733954687567898175216, 2500411323869602399614194799300, 2149476401221237150545535880100, 1778877021700334193554926245600, 1417071525761283171136975144800, 1086421503083650431205014277680, 801458485881381465643043319600, 568776989980335233682159775200, 388212866177054207116394767200, 254764693428691823420134065975, 160697729701174842465007641615, 97392563455257480281822813100, 56691193653060324343150592700, 31680372923769004779995919450, 16988026060571785171881869850, 8736699116865489516967818780, 4306823508313973705547516300, 2033777767814932027619660475, 919378990930037765910257475, 397569293375151466339570800, 164328641261729272753689264, 64866568919103660297508920, 24430266216285794138022840, 8769839154564131229033840, 2997286799661158774479920, 974118209889876601705974, 300653768484529815341350, 87996224922301409368200, 24384496062806414644200, 6386415635496918121100, 1577820333475709182860, 366934961273420740200, 80135221427528667400, 16391295291994500150, 3130921572628162950, 556608279578340080, 91748617512913200, 13961746143269400, 1951641934005400, 249145778809200, 28848458598960, 3005047770725, 278818865325, 22760723700, 1609344100, 96560646, 4780230, 187460, 5460, 105, 1]

/-- Row 106 of Pascal's triangle (A007318.cpp). -/
def row106 : List Nat := [1, 106, 5565, 192920, 4967690, 101340876, 1705904746, 24370067800, 301579589025, 3283866636050, 31853506369685, 277994237408160, 2200787712814600, 15913388077274800, 105710363656182600, 648356897091253280, 3687529852206503030, 19522216864622663100, 96526516719523167550, 447070182700949407600, 1944755294749129923060, 7964235968972627303960, 30770911698303332765300, 112380720985107824012400, 388649993406831224709550, 1274771978374406417047324, 3971405009551035376185894, 11767125954225290003513760, 33200105370849925367056680, 89296835135389454435531760, 229195210180832933051198184, 561897934636880739093260064, 1316948284305189232249828275, 2953156758744969793529917950, 6340601276128905733167176775, 13043522625179463222515335080, 25724725177437274688849688630, 48668398984340789951877789300, 88371566576829329123146512150, 154083757108317804624973405800, 258090293156432322746830454715, 415462423129866665885141707590, 642977559605746030536528833175, 956989856157389440798554542400, 1370235475861716699325203094800, 1887879988965031896848057597280, 2503493028844933602341989422480, 3195948547461617364691901390400, 3928353422921571344100462125700, 4649887725090839550159730679400, 5300872006603557087182092974516, 5820565340584297978082298168096, 6156367187156469015279353831640, 6272525058612251449529907677520, 6156367187156469015279353831640, 5820565340584297978082298168096, 5300872006603557087182092974516, 4649887725090839550159730679400, 3928353422921571344100462125700, 3195948547461617364691901390400, 2503493028844933602341989422480, 1887879988965031896848057597280, 1370235475861716699325203094800, 956989856157389440798554542400, 642977559605746030536528833175, 415462423129866665885141707590, 258090293156432322746830454715, 154083757108317804624973405800, 88371566576829329123146512150, 48668398984340789951877789300, 25724725177437274688849688630, 13043522625179463222515335080, 6340601276128905733167176775, 2953156758744969793529917950, 1316948284305189232249828275, 561897934636880739093260064, 229195210180832933051198184, 89296835135389454435531760, 33200105370849925367056680, 11767125954225290003513760, 3971405009551035376185894, 1274771978374406417047324, 388649993406831224709550, 112380720985107824012400, 30770911698303332765300, 7964235968972627303960, 1944755294749129923060, 447070182700949407600, 96526516719523167550, 19522216864622663100, 3687529852206503030, 648356897091253280, 105710363656182600, 15913388077274800, 2200787712814600, 277994237408160, 31853506369685, 3283866636050, 301579589025, 24370067800, 1705904746, 101340876, 4967690, 192920, 5565, 106, 1]

/-- Row 107 of Pascal's triangle (A007318.cpp). -/
def row107 : List Nat := [1, 107, 5671, 198485, 5160610, 106308566, 1807245622, 26075972546, 325949656825, 3585446225075, 35137373005735, 309847743777845, 2478781950222760, 18114175790089400, 121623751733457400, 754067260747435880, 4335886749297756310, 23209746716829166130, 116048733584145830650, 543596699420472575150, 2391825477450079330660, 9908991263721757227020, 38735147667275960069260, 143151632683411156777700, 501030714391939048721950, 1663421971781237641756874, 5246176987925441793233218, 15738530963776325379699654, 44967231325075215370570440, 122496940506239379802588440, 318492045316222387486729944, 791093144817713672144458248, 1878846218942069971343088339, 4270105043050159025779746225, 9293758034873875526697094725, 19384123901308368955682511855, 38768247802616737911365023710, 74393124161778064640727477930, 137039965561170119075024301450, 242455323685147133748119917950, 412174050264750127371803860515, 673552716286298988631972162305, 1058439982735612696421670540765, 1599967415763135471335083375575, 2327225332019106140123757637200, 3258115464826748596173260692080, 4391373017809965499190047019760, 5699441576306550967033890812880, 7124301970383188708792363516100, 8578241148012410894260192805100, 9950759731694396637341823653916, 11121437347187855065264391142612, 11976932527740766993361651999736, 12428892245768720464809261509160, 12428892245768720464809261509160, 11976932527740766993361651999736, 11121437347187855065264391142612, 9950759731694396637341823653916, 8578241148012410894260192805100, 7124301970383188708792363516100, 5699441576306550967033890812880, 4391373017809965499190047019760, 3258115464826748596173260692080, 2327225332019106140123757637200, 1599967415763135471335083375575, 1058439982735612696421670540765, 673552716286298988631972162305, 412174050264750127371803860515, 242455323685147133748119917950, 137039965561170119075024301450, 74393124161778064640727477930, 38768247802616737911365023710, 19384123901308368955682511855, 9293758034873875526697094725, 4270105043050159025779746225, 1878846218942069971343088339, 791093144817713672144458248, 318492045316222387486729944, 122496940506239379802588440, 44967231325075215370570440, 15738530963776325379699654, 5246176987925441793233218, 1663421971781237641756874, 501030714391939048721950, 143151632683411156777700, 38735147667275960069260, 9908991263721757227020, 2391825477450079330660, 543596699420472575150, 116048733584145830650, 23209746716829166130, 4335886749297756310, 754067260747435880, 121623751733457400, 18114175790089400, 2478781950222760, 309847743777845, 35137373005735, 3585446225075, 325949656825, 26075972546, 1807245622, 106308566, 5160610, 198485, 5671, 107, 1]

/-- Row 108 of Pascal's triangle (A007318.cpp). -/
def row108 : List Nat := [1, 108, 5778, 204156, 5359095, 111469176, 1913554188, 27883218168, 352025629371, 3911395881900, 38722819230810, 344985116783580, 2788629694000605, 20592957740312160, 139737927523546800, 875691012480893280, 5089954010045192190, 27545633466126922440, 139258480300974996780, 659645433004618405800, 2935422176870551905810, 12300816741171836557680, 48644138930997717296280, 181886780350687116846960, 644182347075350205499650, 2164452686173176690478824, 6909598959706679434990092, 20984707951701767172932872, 60705762288851540750270094, 167464171831314595173158880, 440988985822461767289318384, 1109585190133936059631188192, 2669939363759783643487546587, 6148951261992228997122834564, 13563863077924034552476840950, 28677881936182244482379606580, 58152371703925106867047535565, 113161371964394802552092501640, 211433089722948183715751779380, 379495289246317252823144219400, 654629373949897261119923778465, 1085726766551049116003776022820, 1731992699021911685053642703070, 2658407398498748167756753916340, 3927192747782241611458841012775, 5585340796845854736297018329280, 7649488482636714095363307711840, 10090814594116516466223937832640, 12823743546689739675826254328980, 15702543118395599603052556321200, 18529000879706807531602016459016, 21072197078882251702606214796528, 23098369874928622058626043142348, 24405824773509487458170913508896, 24857784491537440929618523018320, 24405824773509487458170913508896, 23098369874928622058626043142348, 21072197078882251702606214796528, 18529000879706807531602016459016, 15702543118395599603052556321200, 12823743546689739675826254328980, 10090814594116516466223937832640, 7649488482636714095363307711840, 5585340796845854736297018329280, 3927192747782241611458841012775, 2658407398498748167756753916340, 1731992699021911685053642703070, 1085726766551049116003776022820, 654629373949897261119923778465, 379495289246317252823144219400, 211433089722948183715751779380, 113161371964394802552092501640, 58152371703925106867047535565, 28677881936182244482379606580, 13563863077924034552476840950, 6148951261992228997122834564, 2669939363759783643487546587, 1109585190133936059631188192, 440988985822461767289318384, 167464171831314595173158880, 60705762288851540750270094, 20984707951701767172932872, 6909598959706679434990092, 2164452686173176690478824, 644182347075350205499650, 181886780350687116846960, 48644138930997717296280, 12300816741171836557680, 2935422176870551905810, 659645433004618405800, 139258480300974996780, 27545633466126922440, 5089954010045192190, 875691012480893280, 139737927523546800, 20592957740312160, 2788629694000605, 344985116783580, 38722819230810, 3911395881900, 352025629371, 27883218168, 1913554188, 111469176, 5359095, 204156, 5778, 108, 1]

/-- Row 109 of Pascal's triangle (A007318.cpp). -/
def row109 : List Nat := [1, 109, 5886, 209934, 5563251, 116828271, 2025023364, 29796772356, 379908847539, 4263421511271, 42634215112710, 383707936014390, 3133614810784185, 23381587434312765, 160330885263858960, 1015428940004440080, 5965645022526085470, 32635587476172114630, 166804113767101919220, 798903913305593402580, 3595067609875170311610, 15236238918042388463490, 60944955672169553853960, 230530919281684834143240, 826069127426037322346610, 2808635033248526895978474, 9074051645879856125468916, 27894306911408446607922964, 81690470240553307923202966, 228169934120166135923428974, 608453157653776362462477264, 1550574175956397826920506576, 3779524553893719703118734779, 8818890625752012640610381151, 19712814339916263549599675514, 42241745014106279034856447530, 86830253640107351349427142145, 171313743668319909419140037205, 324594461687342986267844281020, 590928378969265436538895998780, 1034124663196214513943067997865, 1740356140500946377123699801285, 2817719465572960801057418725890, 4390400097520659852810396619410, 6585600146280989779215594929115, 9512533544628096347755859342055, 13234829279482568831660326041120, 17740303076753230561587245544480, 22914558140806256142050192161620, 28526286665085339278878810650180, 34231543998102407134654572780216, 39601197958589059234208231255544, 44170566953810873761232257938876, 47504194648438109516796956651244, 49263609265046928387789436527216, 49263609265046928387789436527216, 47504194648438109516796956651244, 44170566953810873761232257938876, 39601197958589059234208231255544, 34231543998102407134654572780216, 28526286665085339278878810650180, 22914558140806256142050192161620, 17740303076753230561587245544480, 13234829279482568831660326041120, 9512533544628096347755859342055, 6585600146280989779215594929115, 4390400097520659852810396619410, 2817719465572960801057418725890, 1740356140500946377123699801285, 1034124663196214513943067997865, 590928378969265436538895998780, 324594461687342986267844281020, 171313743668319909419140037205, 86830253640107351349427142145, 42241745014106279034856447530, 19712814339916263549599675514, 8818890625752012640610381151, 3779524553893719703118734779, 1550574175956397826920506576, 608453157653776362462477264, 228169934120166135923428974, 81690470240553307923202966, 27894306911408446607922964, 9074051645879856125468916, 2808635033248526895978474, 826069127426037322346610, 230530919281684834143240, 60944955672169553853960, 15236238918042388463490, 3595067609875170311610, 798903913305593402580, 166804113767101919220, 32635587476172114630, 5965645022526085470, 1015428940004440080, 160330885263858960, 23381587434312765, 3133614810784185, 383707936014390, 42634215112710, 4263421511271, 379908847539, 29796772356, 2025023364, 116828271, 5563251, 209934, 5886, 109, 1]

/-- Row 110 of Pascal's triangle (A007318.cpp). -/
def row110 : List Nat := [1, 110, 5995, 215820, 5773185, 122391522, 2141851635, 31821795720, 409705619895, 4643330358810, 46897636623981, 426342151127100, 3517322746798575, 26515202245096950, 183712472698171725, 1175759825268299040, 6981073962530525550, 38601232498698200100, 199439701243274033850, 965708027072695321800, 4393971523180763714190, 18831306527917558775100, 76181194590211942317450, 291475874953854387997200, 1056600046707722156489850, 3634704160674564218325084, 11882686679128383021447390, 36968358557288302733391880, 109584777151961754531125930, 309860404360719443846631940, 836623091773942498385906238, 2159027333610174189382983840, 5330098729850117530039241355, 12598415179645732343729115930, 28531704965668276190210056665, 61954559354022542584456123044, 129071998654213630384283589675, 258143997308427260768567179350, 495908205355662895686984318225, 915522840656608422806740279800, 1625053042165479950481963996645, 2774480803697160891066767799150, 4558075606073907178181118527175, 7208119563093620653867815345300, 10976000243801649632025991548525, 16098133690909086126971454271170, 22747362824110665179416185383175, 30975132356235799393247571585600, 40654861217559486703637437706100, 51440844805891595420929002811800, 62757830663187746413533383430396, 73832741956691466368862804035760, 83771764912399932995440489194420, 91674761602248983278029214590120, 96767803913485037904586393178460, 98527218530093856775578873054432, 96767803913485037904586393178460, 91674761602248983278029214590120, 83771764912399932995440489194420, 73832741956691466368862804035760, 62757830663187746413533383430396, 51440844805891595420929002811800, 40654861217559486703637437706100, 30975132356235799393247571585600, 22747362824110665179416185383175, 16098133690909086126971454271170, 10976000243801649632025991548525, 7208119563093620653867815345300, 4558075606073907178181118527175, 2774480803697160891066767799150, 1625053042165479950481963996645, 915522840656608422806740279800, 495908205355662895686984318225, 258143997308427260768567179350, 129071998654213630384283589675, 61954559354022542584456123044, 28531704965668276190210056665, 12598415179645732343729115930, 5330098729850117530039241355, 2159027333610174189382983840, 836623091773942498385906238, 309860404360719443846631940, 109584777151961754531125930, 36968358557288302733391880, 11882686679128383021447390, 3634704160674564218325084, 1056600046707722156489850, 291475874953854387997200, 76181194590211942317450, 18831306527917558775100, 4393971523180763714190, 965708027072695321800, 199439701243274033850, 38601232498698200100, 6981073962530525550, 1175759825268299040, 183712472698171725, 26515202245096950, 3517322746798575, 426342151127100, 46897636623981, 4643330358810, 409705619895, 31821795720, 2141851635, 122391522, 5773185, 215820, 5995, 110, 1]

/-- Row 111 of Pascal's triangle (A007318.cpp). -/
def row111 : List Nat := [1, 111, 6105, 221815, 5989005, 128164707, 2264243157, 33963647355, 441527415615, 5053035978705, 51540966982791, 473239787751081, 3943664897925675, 30032524991895525, 210227674943268675, 1359472297966470765, 8156833787798824590, 45582306461228725650, 238040933741972233950, 1165147728315969355650, 5359679550253459035990, 23225278051098322489290, 95012501118129501092550, 367657069544066330314650, 1348075921661576544487050, 4691304207382286374814934, 15517390839802947239772474, 48851045236416685754839270, 146553135709250057264517810, 419445181512681198377757870, 1146483496134661942232538178, 2995650425384116687768890078, 7489126063460291719422225195, 17928513909495849873768357285, 41130120145314008533939172595, 90486264319690818774666179709, 191026558008236172968739712719, 387215995962640891152850769025, 754052202664090156455551497575, 1411431046012271318493724598025, 2540575882822088373288704276445, 4399533845862640841548731795795, 7332556409771068069247886326325, 11766195169167527832048933872475, 18184119806895270285893806893825, 27074133934710735758997445819695, 38845496515019751306387639654345, 53722495180346464572663756968775, 71629993573795286096885009291700, 92095706023451082124566440517900, 114198675469079341834462386242196, 136590572619879212782396187466156, 157604506869091399364303293230180, 175446526514648916273469703784540, 188442565515734021182615607768580, 195295022443578894680165266232892, 195295022443578894680165266232892, 188442565515734021182615607768580, 175446526514648916273469703784540, 157604506869091399364303293230180, 136590572619879212782396187466156, 114198675469079341834462386242196, 92095706023451082124566440517900, 71629993573795286096885009291700, 53722495180346464572663756968775, 38845496515019751306387639654345, 27074133934710735758997445819695, 18184119806895270285893806893825, 11766195169167527832048933872475, 7332556409771068069247886326325, 4399533845862640841548731795795, 2540575882822088373288704276445, 1411431046012271318493724598025, 754052202664090156455551497575, 387215995962640891152850769025, 191026558008236172968739712719, 90486264319690818774666179709, 41130120145314008533939172595, 17928513909495849873768357285, 7489126063460291719422225195, 2995650425384116687768890078, 1146483496134661942232538178, 419445181512681198377757870, 146553135709250057264517810, 48851045236416685754839270, 15517390839802947239772474, 4691304207382286374814934, 1348075921661576544487050, 367657069544066330314650, 95012501118129501092550, 23225278051098322489290, 5359679550253459035990, 1165147728315969355650, 238040933741972233950, 45582306461228725650, 8156833787798824590, 1359472297966470765, 210227674943268675, 30032524991895525, 3943664897925675, 473239787751081, 51540966982791, 5053035978705, 441527415615, 33963647355, 2264243157, 128164707, 5989005, 221815, 6105, 111, 1]

/-- Row 112 of Pascal's triangle (A007318.cpp). -/
def row112 : List Nat := [1, 112, 6216, 227920, 6210820, 134153712, 2392407864, 36227890512, 475491062970, 5494563394320, 56594002961496, 524780754733872, 4416904685676756, 33976189889821200, 240260199935164200, 1569699972909739440, 9516306085765295355, 53739140249027550240, 283623240203200959600, 1403188662057941589600, 6524827278569428391640, 28584957601351781525280, 118237779169227823581840, 462669570662195831407200, 1715732991205642874801700, 6039380129043862919301984, 20208695047185233614587408, 64368436076219632994611744, 195404180945666743019357080, 565998317221931255642275680, 1565928677647343140610296048, 4142133921518778630001428256, 10484776488844408407191115273, 25417639972956141593190582480, 59058634054809858407707529880, 131616384465004827308605352304, 281512822327926991743405892428, 578242553970877064121590481744, 1141268198626731047608402266600, 2165483248676361474949276095600, 3952006928834359691782428874470, 6940109728684729214837436072240, 11732090255633708910796618122120, 19098751578938595901296820198800, 29950314976062798117942740766300, 45258253741606006044891252713520, 65919630449730487065385085474040, 92567991695366215879051396623120, 125352488754141750669548766260475, 163725699597246368221451449809600, 206294381492530423959028826760096, 250789248088958554616858573708352, 294195079488970612146699480696336, 333051033383740315637772997014720, 363889092030382937456085311553120, 383737587959312915862780874001472, 390590044887157789360330532465784, 383737587959312915862780874001472, 363889092030382937456085311553120, 333051033383740315637772997014720, 294195079488970612146699480696336, 250789248088958554616858573708352, 206294381492530423959028826760096, 163725699597246368221451449809600, 125352488754141750669548766260475, 92567991695366215879051396623120, 65919630449730487065385085474040, 45258253741606006044891252713520, 29950314976062798117942740766300, 19098751578938595901296820198800, 11732090255633708910796618122120, 6940109728684729214837436072240, 3952006928834359691782428874470, 2165483248676361474949276095600, 1141268198626731047608402266600, 578242553970877064121590481744, 281512822327926991743405892428, 131616384465004827308605352304, 59058634054809858407707529880, 25417639972956141593190582480, 10484776488844408407191115273, 4142133921518778630001428256, 1565928677647343140610296048, 565998317221931255642275680, 195404180945666743019357080, 64368436076219632994611744, 20208695047185233614587408, 6039380129043862919301984, 1715732991205642874801700, 462669570662195831407200, 118237779169227823581840, 28584957601351781525280, 6524827278569428391640, 1403188662057941589600, 283623240203200959600, 53739140249027550240, 9516306085765295355, 1569699972909739440, 240260199935164200, 33976189889821200, 4416904685676756, 524780754733872, 56594002961496, 5494563394320, 475491062970, 36227890512, 2392407864, 134153712, 6210820, 227920, 6216, 112, 1]

/-- Row 113 of Pascal's triangle (A007318.cpp). -/
def row113 : List Nat := [1, 113, 6328, 234136, 6438740, 140364532, 2526561576, 38620298376, 511718953482, 5970054457290, 62088566355816, 581374757695368, 4941685440410628, 38393094575497956, 274236389824985400, 1809960172844903640, 11086006058675034795, 63255446334792845595, 337362380452228509840, 1686811902261142549200, 7928015940627369981240, 35109784879921209916920, 146822736770579605107120, 580907349831423654989040, 2178402561867838706208900, 7755113120249505794103684, 26248075176229096533889392, 84577131123404866609199152, 259772617021886376013968824, 761402498167597998661632760, 2131926994869274396252571728, 5708062599166121770611724304, 14626910410363187037192543529, 35902416461800550000381697753, 84476274027766000000898112360, 190675018519814685716312882184, 413129206792931819052011244732, 859755376298804055864996374172, 1719510752597608111729992748344, 3306751447303092522557678362200, 6117490177510721166731704970070, 10892116657519088906619864946710, 18672199984318438125634054194360, 30830841834572304812093438320920, 49049066555001394019239560965100, 75208568717668804162833993479820, 111177884191336493110276338187560, 158487622145096702944436482097160, 217920480449507966548600162883595, 289078188351388118891000216070075, 370020081089776792180480276569696, 457083629581488978575887400468448, 544984327577929166763558054404688, 627246112872710927784472477711056, 696940125414123253093858308567840, 747626679989695853318866185554592, 774327632846470705223111406467256, 774327632846470705223111406467256, 747626679989695853318866185554592, 696940125414123253093858308567840, 627246112872710927784472477711056, 544984327577929166763558054404688, 457083629581488978575887400468448, 370020081089776792180480276569696, 289078188351388118891000216070075, 217920480449507966548600162883595, 158487622145096702944436482097160, 111177884191336493110276338187560, 75208568717668804162833993479820, 49049066555001394019239560965100, 30830841834572304812093438320920, 18672199984318438125634054194360, 10892116657519088906619864946710, 6117490177510721166731704970070, 3306751447303092522557678362200, 1719510752597608111729992748344, 859755376298804055864996374172, 413129206792931819052011244732, 190675018519814685716312882184, 84476274027766000000898112360, 35902416461800550000381697753, 14626910410363187037192543529, 5708062599166121770611724304, 2131926994869274396252571728, 761402498167597998661632760, 259772617021886376013968824, 84577131123404866609199152, 26248075176229096533889392, 7755113120249505794103684, 2178402561867838706208900, 580907349831423654989040, 146822736770579605107120, 35109784879921209916920, 7928015940627369981240, 1686811902261142549200, 337362380452228509840, 63255446334792845595, 11086006058675034795, 1809960172844903640, 274236389824985400, 38393094575497956, 4941685440410628, 581374757695368, 62088566355816, 5970054457290, 511718953482, 38620298376, 2526561576, 140364532, 6438740, 234136, 6328, 113, 1]

/-- Row 114 of Pascal's triangle (A007318.cpp). -/
def row114 : List Nat := [1, 114, 6441, 240464, 6672876, 146803272, 2666926108, 41146859952, 550339251858, 6481773410772, 68058620813106, 643463324051184, 5523060198105996, 43334780015908584, 312629484400483356, 2084196562669889040, 12895966231519938435, 74341452393467880390, 400617826787021355435, 2024174282713371059040, 9614827842888512530440, 43037800820548579898160, 181932521650500815024040, 727730086602003260096160, 2759309911699262361197940, 9933515682117344500312584, 34003188296478602327993076, 110825206299633963143088544, 344349748145291242623167976, 1021175115189484374675601584, 2893329493036872394914204488, 7839989594035396166864296032, 20334973009529308807804267833, 50529326872163737037574241282, 120378690489566550001279810113, 275151292547580685717210994544, 603804225312746504768324126916, 1272884583091735874917007618904, 2579266128896412167594989122516, 5026262199900700634287671110544, 9424241624813813689289383332270, 17009606835029810073351569916780, 29564316641837527032253919141070, 49503041818890742937727492515280, 79879908389573698831332999286020, 124257635272670198182073554444920, 186386452909005297273110331667380, 269665506336433196054712820284720, 376408102594604669493036644980755, 506998668800896085439600378953670, 659098269441164911071480492639771, 827103710671265770756367677038144, 1002067957159418145339445454873136, 1172230440450640094548030532115744, 1324186238286834180878330786278896, 1444566805403819106412724494122432, 1521954312836166558541977592021848, 1548655265692941410446222812934512, 1521954312836166558541977592021848, 1444566805403819106412724494122432, 1324186238286834180878330786278896, 1172230440450640094548030532115744, 1002067957159418145339445454873136, 827103710671265770756367677038144, 659098269441164911071480492639771, 506998668800896085439600378953670, 376408102594604669493036644980755, 269665506336433196054712820284720, 186386452909005297273110331667380, 124257635272670198182073554444920, 79879908389573698831332999286020, 49503041818890742937727492515280, 29564316641837527032253919141070, 17009606835029810073351569916780, 9424241624813813689289383332270, 5026262199900700634287671110544, 2579266128896412167594989122516, 1272884583091735874917007618904, 603804225312746504768324126916, 275151292547580685717210994544, 120378690489566550001279810113, 50529326872163737037574241282, 20334973009529308807804267833, 7839989594035396166864296032, 2893329493036872394914204488, 1021175115189484374675601584, 344349748145291242623167976, 110825206299633963143088544, 34003188296478602327993076, 9933515682117344500312584, 2759309911699262361197940, 727730086602003260096160, 181932521650500815024040, 43037800820548579898160, 9614827842888512530440, 2024174282713371059040, 400617826787021355435, 74341452393467880390, 12895966231519938435, 2084196562669889040, 312629484400483356, 43334780015908584, 5523060198105996, 643463324051184, 68058620813106, 6481773410772, 550339251858, 41146859952, 2666926108, 146803272, 6672876, 240464, 6441, 114, 1]

/-- Row 115 of Pascal's triangle (A007318.cpp). -/
def row115 : List Nat := [1, 115, 6555, 246905, 6913340, 153476148, 2813729380, 43813786060, 591486111810, 7032112662630, 74540394223878, 711521944864290, 6166523522157180, 48857840214014580, 355964264416391940, 2396826047070372396, 14980162794189827475, 87237418624987818825, 474959279180489235825, 2424792109500392414475, 11639002125601883589480, 52652628663437092428600, 224970322471049394922200, 909662608252504075120200, 3487039998301265621294100, 12692825593816606861510524, 43936703978595946828305660, 144828394596112565471081620, 455174954444925205766256520, 1365524863334775617298769560, 3914504608226356769589806072, 10733319087072268561778500520, 28174962603564704974668563865, 70864299881693045845378509115, 170908017361730287038854051395, 395529983037147235718490804657, 878955517860327190485535121460, 1876688808404482379685331745820, 3852150711988148042511996741420, 7605528328797112801882660233060, 14450503824714514323577054442814, 26433848459843623762640953249050, 46573923476867337105605489057850, 79067358460728269969981411656350, 129382950208464441769060491801300, 204137543662243897013406553730940, 310644088181675495455183886112300, 456051959245438493327823151952100, 646073608931037865547749465265475, 883406771395500754932637023934425, 1166096938242060996511080871593441, 1486201980112430681827848169677915, 1829171667830683916095813131911280, 2174298397610058239887475986988880, 2496416678737474275426361318394640, 2768753043690653287291055280401328, 2966521118239985664954702086144280, 3070609578529107968988200404956360, 3070609578529107968988200404956360, 2966521118239985664954702086144280, 2768753043690653287291055280401328, 2496416678737474275426361318394640, 2174298397610058239887475986988880, 1829171667830683916095813131911280, 1486201980112430681827848169677915, 1166096938242060996511080871593441, 883406771395500754932637023934425, 646073608931037865547749465265475, 456051959245438493327823151952100, 310644088181675495455183886112300, 204137543662243897013406553730940, 129382950208464441769060491801300, 79067358460728269969981411656350, 46573923476867337105605489057850, 26433848459843623762640953249050, 14450503824714514323577054442814, 7605528328797112801882660233060, 3852150711988148042511996741420, 1876688808404482379685331745820, 878955517860327190485535121460, 395529983037147235718490804657, 170908017361730287038854051395, 70864299881693045845378509115, 28174962603564704974668563865, 10733319087072268561778500520, 3914504608226356769589806072, 1365524863334775617298769560, 455174954444925205766256520, 144828394596112565471081620, 43936703978595946828305660, 12692825593816606861510524, 3487039998301265621294100, 909662608252504075120200, 224970322471049394922200, 52652628663437092428600, 11639002125601883589480, 2424792109500392414475, 474959279180489235825, 87237418624987818825, 14980162794189827475, 2396826047070372396, 355964264416391940, 48857840214014580, 6166523522157180, 711521944864290, 74540394223878, 7032112662630, 591486111810, 43813786060, 2813729380, 153476148, 6913340, 246905, 6555, 115, 1]

/-- Row 116 of Pascal's triangle (A007318.cpp). -/
def row116 : List Nat := [1, 116, 6670, 253460, 7160245, 160389488, 2967205528, 46627515440, 635299897870, 7623598774440, 81572506886508, 786062339088168, 6878045467021470, 55024363736171760, 404822104630406520, 2752790311486764336, 17376988841260199871, 102217581419177646300, 562196697805477054650, 2899751388680881650300, 14063794235102276003955, 64291630789038976018080, 277622951134486487350800, 1134632930723553470042400, 4396702606553769696414300, 16179865592117872482804624, 56629529572412553689816184, 188765098574708512299387280, 600003349041037771237338140, 1820699817779700823065026080, 5280029471561132386888575632, 14647823695298625331368306592, 38908281690636973536447064385, 99039262485257750820047072980, 241772317243423332884232560510, 566438000398877522757344856052, 1274485500897474426204025926117, 2755644326264809570170866867280, 5728839520392630422197328487240, 11457679040785260844394656974480, 22056032153511627125459714675874, 40884352284558138086218007691864, 73007771936710960868246442306900, 125641281937595607075586900714200, 208450308669192711739041903457650, 333520493870708338782467045532240, 514781631843919392468590439843240, 766696047427113988783007038064400, 1102125568176476358875572617217575, 1529480380326538620480386489199900, 2049503709637561751443717895527866, 2652298918354491678338929041271356, 3315373647943114597923661301589195, 4003470065440742155983289118900160, 4670715076347532515313837305383520, 5265169722428127562717416598795968, 5735274161930638952245757366545608, 6037130696769093633942902491100640, 6141219157058215937976400809912720, 6037130696769093633942902491100640, 5735274161930638952245757366545608, 5265169722428127562717416598795968, 4670715076347532515313837305383520, 4003470065440742155983289118900160, 3315373647943114597923661301589195, 2652298918354491678338929041271356, 2049503709637561751443717895527866, 1529480380326538620480386489199900, 1102125568176476358875572617217575, 766696047427113988783007038064400, 514781631843919392468590439843240, 333520493870708338782467045532240, 208450308669192711739041903457650, 125641281937595607075586900714200, 73007771936710960868246442306900, 40884352284558138086218007691864, 22056032153511627125459714675874, 11457679040785260844394656974480, 5728839520392630422197328487240, 2755644326264809570170866867280, 1274485500897474426204025926117, 566438000398877522757344856052, 241772317243423332884232560510, 99039262485257750820047072980, 38908281690636973536447064385, 14647823695298625331368306592, 5280029471561132386888575632, 1820699817779700823065026080, 600003349041037771237338140, 188765098574708512299387280, 56629529572412553689816184, 16179865592117872482804624, 4396702606553769696414300, 1134632930723553470042400, 277622951134486487350800, 64291630789038976018080, 14063794235102276003955, 2899751388680881650300, 562196697805477054650, 102217581419177646300, 17376988841260199871, 2752790311486764336, 404822104630406520, 55024363736171760, 6878045467021470, 786062339088168, 81572506886508, 7623598774440, 635299897870, 46627515440, 2967205528, 160389488, 7160245, 253460, 6670, 116, 1]

/-- Row 117 of Pascal's triangle (A007318.cpp). -/
def row117 : List Nat := [1, 117, 6786, 260130, 7413705, 167549733, 3127595016, 49594720968, 681927413310, 8258898672310, 89196105660948, 867634845974676, 7664107806109638, 61902409203193230, 459846468366578280, 3157612416117170856, 20129779152746964207, 119594570260437846171, 664414279224654700950, 3461948086486358704950, 16963545623783157654255, 78355425024141252022035, 341914581923525463368880, 1412255881858039957393200, 5531335537277323166456700, 20576568198671642179218924, 72809395164530426172620808, 245394628147121065989203464, 788768447615746283536725420, 2420703166820738594302364220, 7100729289340833209953601712, 19927853166859757718256882224, 53556105385935598867815370977, 137947544175894724356494137365, 340811579728681083704279633490, 808210317642300855641577416562, 1840923501296351948961370782169, 4030129827162283996374892793397, 8484483846657439992368195354520, 17186518561177891266591985461720, 33513711194296887969854371650354, 62940384438069765211677722367738, 113892124221269098954464449998764, 198649053874306567943833343021100, 334091590606788318814628804171850, 541970802539901050521508948989890, 848302125714627731251057485375480, 1281477679271033381251597477907640, 1868821615603590347658579655281975, 2631605948503014979355959106417475, 3578984089964100371924104384727766, 4701802627992053429782646936799222, 5967672566297606276262590342860551, 7318843713383856753906950420489355, 8674185141788274671297126424283680, 9935884798775660078031253904179488, 11000443884358766514963173965341576, 11772404858699732586188659857646248, 12178349853827309571919303301013360, 12178349853827309571919303301013360, 11772404858699732586188659857646248, 11000443884358766514963173965341576, 9935884798775660078031253904179488, 8674185141788274671297126424283680, 7318843713383856753906950420489355, 5967672566297606276262590342860551, 4701802627992053429782646936799222, 3578984089964100371924104384727766, 2631605948503014979355959106417475, 1868821615603590347658579655281975, 1281477679271033381251597477907640, 848302125714627731251057485375480, 541970802539901050521508948989890, 334091590606788318814628804171850, 198649053874306567943833343021100, 113892124221269098954464449998764, 62940384438069765211677722367738, 33513711194296887969854371650354, 17186518561177891266591985461720, 8484483846657439992368195354520, 4030129827162283996374892793397, 1840923501296351948961370782169, 808210317642300855641577416562, 340811579728681083704279633490, 137947544175894724356494137365, 53556105385935598867815370977, 19927853166859757718256882224, 7100729289340833209953601712, 2420703166820738594302364220, 788768447615746283536725420, 245394628147121065989203464, 72809395164530426172620808, 20576568198671642179218924, 5531335537277323166456700, 1412255881858039957393200, 341914581923525463368880, 78355425024141252022035, 16963545623783157654255, 3461948086486358704950, 664414279224654700950, 119594570260437846171, 20129779152746964207, 3157612416117170856, 459846468366578280, 61902409203193230, 7664107806109638, 867634845974676, 89196105660948, 8258898672310, 681927413310, 49594720968, 3127595016, 167549733, 7413705, 260130, 6786, 117, 1]

/-- Row 118 of Pascal's triangle (A007318.cpp). -/
def row118 : List Nat := [1, 118, 6903, 266916, 7673835, 174963438, 3295144749, 52722315984, 731522134278, 8940826085620, 97455004333258, 956830951635624, 8531742652084314, 69566517009302868, 521748877569771510, 3617458884483749136, 23287391568864135063, 139724349413184810378, 784008849485092547121, 4126362365711013405900, 20425493710269516359205, 95318970647924409676290, 420270006947666715390915, 1754170463781565420762080, 6943591419135363123849900, 26107903735948965345675624, 93385963363202068351839732, 318204023311651492161824272, 1034163075762867349525928884, 3209471614436484877839089640, 9521432456161571804255965932, 27028582456200590928210483936, 73483958552795356586072253201, 191503649561830323224309508342, 478759123904575808060773770855, 1149021897370981939345857050052, 2649133818938652804602948198731, 5871053328458635945336263575566, 12514613673819723988743088147917, 25671002407835331258960180816240, 50700229755474779236446357112074, 96454095632366653181532094018092, 176832508659338864166142172366502, 312541178095575666898297793019864, 532740644481094886758462147192950, 876062393146689369336137753161740, 1390272928254528781772566434365370, 2129779804985661112502654963283120, 3150299294874623728910177133189615, 4500427564106605327014538761699450, 6210590038467115351280063491145241, 8280786717956153801706751321526988, 10669475194289659706045237279659773, 13286516279681463030169540763349906, 15993028855172131425204076844773035, 18610069940563934749328380328463168, 20936328683134426592994427869521064, 22772848743058499101151833822987824, 23950754712527042158107963158659608, 24356699707654619143838606602026720, 23950754712527042158107963158659608, 22772848743058499101151833822987824, 20936328683134426592994427869521064, 18610069940563934749328380328463168, 15993028855172131425204076844773035, 13286516279681463030169540763349906, 10669475194289659706045237279659773, 8280786717956153801706751321526988, 6210590038467115351280063491145241, 4500427564106605327014538761699450, 3150299294874623728910177133189615, 2129779804985661112502654963283120, 1390272928254528781772566434365370, 876062393146689369336137753161740, 532740644481094886758462147192950, 312541178095575666898297793019864, 176832508659338864166142172366502, 96454095632366653181532094018092, 50700229755474779236446357112074, 25671002407835331258960180816240, 12514613673819723988743088147917, 5871053328458635945336263575566, 2649133818938652804602948198731, 1149021897370981939345857050052, 478759123904575808060773770855, 191503649561830323224309508342, 73483958552795356586072253201, 27028582456200590928210483936, 9521432456161571804255965932, 3209471614436484877839089640, 1034163075762867349525928884, 318204023311651492161824272, 93385963363202068351839732, 26107903735948965345675624, 6943591419135363123849900, 1754170463781565420762080, 420270006947666715390915, 95318970647924409676290, 20425493710269516359205, 4126362365711013405900, 784008849485092547121, 139724349413184810378, 23287391568864135063, 3617458884483749136, 521748877569771510, 69566517009302868, 8531742652084314, 956830951635624, 97455004333258, 8940826085620, 731522134278, 52722315984, 3295144749, 174963438, 7673835, 266916, 6903, 118, 1]

/-- Row 119 of Pascal's triangle (A007318.cpp). -/
def row119 : List Nat := [1, 119, 7021, 273819, 7940751, 182637273, 3470108187, 56017460733, 784244450262, 9672348219898, 106395830418878, 1054285955968882, 9488573603719938, 78098259661387182, 591315394579074378, 4139207762053520646, 26904850453347884199, 163011740982048945441, 923733198898277357499, 4910371215196105953021, 24551856075980529765105, 115744464358193926035495, 515588977595591125067205, 2174440470729232136152995, 8697761882916928544611980, 33051495155084328469525524, 119493867099151033697515356, 411589986674853560513664004, 1352367099074518841687753156, 4243634690199352227365018524, 12730904070598056682095055572, 36550014912362162732466449868, 100512541008995947514282737137, 264987608114625679810381761543, 670262773466406131285083279197, 1627781021275557747406630820907, 3798155716309634743948805248783, 8520187147397288749939211774297, 18385667002278359934079351723483, 38185616081655055247703268964157, 76371232163310110495406537928314, 147154325387841432417978451130166, 273286604291705517347674266384594, 489373686754914531064439965386366, 845281822576670553656759940212814, 1408803037627784256094599900354690, 2266335321401218151108704187527110, 3520052733240189894275221397648490, 5280079099860284841412832096472735, 7650726858981229055924715894889065, 10711017602573720678294602252844691, 14491376756423269152986814812672229, 18950261912245813507751988601186761, 23955991473971122736214778043009679, 29279545134853594455373617608122941, 34603098795736066174532457173236203, 39546398623698361342322808197984232, 43709177426192925694146261692508888, 46723603455585541259259796981647432, 48307454420181661301946569760686328, 48307454420181661301946569760686328, 46723603455585541259259796981647432, 43709177426192925694146261692508888, 39546398623698361342322808197984232, 34603098795736066174532457173236203, 29279545134853594455373617608122941, 23955991473971122736214778043009679, 18950261912245813507751988601186761, 14491376756423269152986814812672229, 10711017602573720678294602252844691, 7650726858981229055924715894889065, 5280079099860284841412832096472735, 3520052733240189894275221397648490, 2266335321401218151108704187527110, 1408803037627784256094599900354690, 845281822576670553656759940212814, 489373686754914531064439965386366, 273286604291705517347674266384594, 147154325387841432417978451130166, 76371232163310110495406537928314, 38185616081655055247703268964157, 18385667002278359934079351723483, 8520187147397288749939211774297, 3798155716309634743948805248783, 1627781021275557747406630820907, 670262773466406131285083279197, 264987608114625679810381761543, 100512541008995947514282737137, 36550014912362162732466449868, 12730904070598056682095055572, 4243634690199352227365018524, 1352367099074518841687753156, 411589986674853560513664004, 119493867099151033697515356, 33051495155084328469525524, 8697761882916928544611980, 2174440470729232136152995, 515588977595591125067205, 115744464358193926035495, 24551856075980529765105, 4910371215196105953021, 923733198898277357499, 163011740982048945441, 26904850453347884199, 4139207762053520646, 591315394579074378, 78098259661387182, 9488573603719938, 1054285955968882, 106395830418878, 9672348219898, 784244450262, 56017460733, 3470108187, 182637273, 7940751, 273819, 7021, 119, 1]

/-- Row 120 of Pascal's triangle (A007318.cpp). -/
def row120 : List Nat := [1, 120, 7140, 280840, 8214570, 190578024, 3652745460, 59487568920, 840261910995, 10456592670160, 116068178638776, 1160681786387760, 10542859559688820, 87586833265107120, 669413654240461560, 4730523156632595024, 31044058215401404845, 189916591435396829640, 1086744939880326302940, 5834104414094383310520, 29462227291176635718126, 140296320434174455800600, 631333441953785051102700, 2690029448324823261220200, 10872202353646160680764975, 41749257038001257014137504, 152545362254235362167040880, 531083853774004594211179360, 1763957085749372402201417160, 5596001789273871069052771680, 16974538760797408909460074096, 49280918982960219414561505440, 137062555921358110246749187005, 365500149123621627324664498680, 935250381581031811095465040740, 2298043794741963878691714100104, 5425936737585192491355436069690, 12318342863706923493888017023080, 26905854149675648684018563497780, 56571283083933415181782620687640, 114556848244965165743109806892471, 223525557551151542913384989058480, 420440929679546949765652717514760, 762660291046620048412114231770960, 1334655509331585084721199905599180, 2254084860204454809751359840567504, 3675138359029002407203304087881800, 5786388054641408045383925585175600, 8800131833100474735688053494121225, 12930805958841513897337547991361800, 18361744461554949734219318147733756, 25202394358996989831281417065516920, 33441638668669082660738803413858990, 42906253386216936243966766644196440, 53235536608824717191588395651132620, 63882643930589660629906074781359144, 74149497419434427516855265371220435, 83255576049891287036469069890493120, 90432780881778466953406058674156320, 95031057875767202561206366742333760, 96614908840363322603893139521372656, 95031057875767202561206366742333760, 90432780881778466953406058674156320, 83255576049891287036469069890493120, 74149497419434427516855265371220435, 63882643930589660629906074781359144, 53235536608824717191588395651132620, 42906253386216936243966766644196440, 33441638668669082660738803413858990, 25202394358996989831281417065516920, 18361744461554949734219318147733756, 12930805958841513897337547991361800, 8800131833100474735688053494121225, 5786388054641408045383925585175600, 3675138359029002407203304087881800, 2254084860204454809751359840567504, 1334655509331585084721199905599180, 762660291046620048412114231770960, 420440929679546949765652717514760, 223525557551151542913384989058480, 114556848244965165743109806892471, 56571283083933415181782620687640, 26905854149675648684018563497780, 12318342863706923493888017023080, 5425936737585192491355436069690, 2298043794741963878691714100104, 935250381581031811095465040740, 365500149123621627324664498680, 137062555921358110246749187005, 49280918982960219414561505440, 16974538760797408909460074096, 5596001789273871069052771680, 1763957085749372402201417160, 531083853774004594211179360, 152545362254235362167040880, 41749257038001257014137504, 10872202353646160680764975, 2690029448324823261220200, 631333441953785051102700, 140296320434174455800600, 29462227291176635718126, 5834104414094383310520, 1086744939880326302940, 189916591435396829640, 31044058215401404845, 4730523156632595024, 669413654240461560, 87586833265107120, 10542859559688820, 1160681786387760, 116068178638776, 10456592670160, 840261910995, 59487568920, 3652745460, 190578024, 8214570, 280840, 7140, 120, 1]

/-- Row 121 of Pascal's triangle (A007318.cpp). -/
def row121 : List Nat := [1, 121, 7260, 287980, 8495410, 198792594, 3843323484, 63140314380, 899749479915, 11296854581155, 126524771308936, 1276749965026536, 11703541346076580, 98129692824795940, 757000487505568680, 5399936810873056584, 35774581372033999869, 220960649650798234485, 1276661531315723132580, 6920849353974709613460, 35296331705271019028646, 169758547725351091518726, 771629762387959506903300, 3321362890278608312322900, 13562231801970983941985175, 52621459391647417694902479, 194294619292236619181178384, 683629216028239956378220240, 2295040939523376996412596520, 7359958875023243471254188840, 22570540550071279978512845776, 66255457743757628324021579536, 186343474904318329661310692445, 502562705044979737571413685685, 1300750530704653438420129539420, 3233294176322995689787179140844, 7723980532327156370047150169794, 17744279601292115985243453092770, 39224197013382572177906580520860, 83477137233609063865801184185420, 171128131328898580924892427580111, 338082405796116708656494795950951, 643966487230698492679037706573240, 1183101220726166998177766949285720, 2097315800378205133133314137370140, 3588740369536039894472559746166684, 5929223219233457216954663928449304, 9461526413670410452587229673057400, 14586519887741882781071979079296825, 21730937791941988633025601485483025, 31292550420396463631556866139095556, 43564138820551939565500735213250676, 58644033027666072492020220479375910, 76347892054886018904705570058055430, 96141789995041653435555162295329060, 117118180539414377821494470432491764, 138032141350024088146761340152579579, 157405073469325714553324335261713555, 173688356931669753989875128564649440, 185463838757545669514612425416490080, 191645966716130525165099506263706416, 191645966716130525165099506263706416, 185463838757545669514612425416490080, 173688356931669753989875128564649440, 157405073469325714553324335261713555, 138032141350024088146761340152579579, 117118180539414377821494470432491764, 96141789995041653435555162295329060, 76347892054886018904705570058055430, 58644033027666072492020220479375910, 43564138820551939565500735213250676, 31292550420396463631556866139095556, 21730937791941988633025601485483025, 14586519887741882781071979079296825, 9461526413670410452587229673057400, 5929223219233457216954663928449304, 3588740369536039894472559746166684, 2097315800378205133133314137370140, 1183101220726166998177766949285720, 643966487230698492679037706573240, 338082405796116708656494795950951, 171128131328898580924892427580111, 83477137233609063865801184185420, 39224197013382572177906580520860, 17744279601292115985243453092770, 7723980532327156370047150169794, 3233294176322995689787179140844, 1300750530704653438420129539420, 502562705044979737571413685685, 186343474904318329661310692445, 66255457743757628324021579536, 22570540550071279978512845776, 7359958875023243471254188840, 2295040939523376996412596520, 683629216028239956378220240, 194294619292236619181178384, 52621459391647417694902479, 13562231801970983941985175, 3321362890278608312322900, 771629762387959506903300, 169758547725351091518726, 35296331705271019028646, 6920849353974709613460, 1276661531315723132580, 220960649650798234485, 35774581372033999869, 5399936810873056584, 757000487505568680, 98129692824795940, 11703541346076580, 1276749965026536, 126524771308936, 11296854581155, 899749479915, 63140314380, 3843323484, 198792594, 8495410, 287980, 7260, 121, 1]

/-- Row 122 of Pascal's triangle (A007318.cpp). -/
def row122 : List Nat := [1, 122, 7381, 295240, 8783390, 207288004, 4042116078, 66983637864, 962889794295, 12196604061070, 137821625890091, 1403274736335472, 12980291311103116, 109833234170872520, 855130180330364620, 6156937298378625264, 41174518182907056453, 256735231022832234354, 1497622180966521367065, 8197510885290432746040, 42217181059245728642106, 205054879430622110547372, 941388310113310598422026, 4092992652666567819226200, 16883594692249592254308075, 66183691193618401636887654, 246916078683884036876080863, 877923835320476575559398624, 2978670155551616952790816760, 9654999814546620467666785360, 29930499425094523449767034616, 88825998293828908302534425312, 252598932648075957985332271981, 688906179949298067232724378130, 1803313235749633175991543225105, 4534044707027649128207308680264, 10957274708650152059834329310638, 25468260133619272355290603262564, 56968476614674688163150033613630, 122701334246991636043707764706280, 254605268562507644790693611765531, 509210537125015289581387223531062, 982048893026815201335532502524191, 1827067707956865490856804655858960, 3280417021104372131311081086655860, 5686056169914245027605873883536824, 9517963588769497111427223674615988, 15390749632903867669541893601506704, 24048046301412293233659208752354225, 36317457679683871414097580564779850, 53023488212338452264582467624578581, 74856689240948403197057601352346232, 102208171848218012057520955692626586, 134991925082552091396725790537431340, 172489682049927672340260732353384490, 213259970534456031257049632727820824, 255150321889438465968255810585071343, 295437214819349802700085675414293134, 331093430400995468543199463826362995, 359152195689215423504487553981139520, 377109805473676194679711931680196496, 383291933432261050330199012527412832, 377109805473676194679711931680196496, 359152195689215423504487553981139520, 331093430400995468543199463826362995, 295437214819349802700085675414293134, 255150321889438465968255810585071343, 213259970534456031257049632727820824, 172489682049927672340260732353384490, 134991925082552091396725790537431340, 102208171848218012057520955692626586, 74856689240948403197057601352346232, 53023488212338452264582467624578581, 36317457679683871414097580564779850, 24048046301412293233659208752354225, 15390749632903867669541893601506704, 9517963588769497111427223674615988, 5686056169914245027605873883536824, 3280417021104372131311081086655860, 1827067707956865490856804655858960, 982048893026815201335532502524191, 509210537125015289581387223531062, 254605268562507644790693611765531, 122701334246991636043707764706280, 56968476614674688163150033613630, 25468260133619272355290603262564, 10957274708650152059834329310638, 4534044707027649128207308680264, 1803313235749633175991543225105, 688906179949298067232724378130, 252598932648075957985332271981, 88825998293828908302534425312, 29930499425094523449767034616, 9654999814546620467666785360, 2978670155551616952790816760, 877923835320476575559398624, 246916078683884036876080863, 66183691193618401636887654, 16883594692249592254308075, 4092992652666567819226200, 941388310113310598422026, 205054879430622110547372, 42217181059245728642106, 8197510885290432746040, 1497622180966521367065, 256735231022832234354, 41174518182907056453, 6156937298378625264, 855130180330364620, 109833234170872520, 12980291311103116, 1403274736335472, 137821625890091, 12196604061070, 962889794295, 66983637864, 4042116078, 207288004, 8783390, 295240, 7381, 122, 1]

/-- Row 123 of Pascal's triangle (A007318.cpp). -/
def row123 : List Nat := [1, 123, 7503, 302621, 9078630, 216071394, 4249404082, 71025753942, 1029873432159, 13159493855365, 150018229951161, 1541096362225563, 14383566047438588, 122813525481975636, 964963414501237140, 7012067478708989884, 47331455481285681717, 297909749205739290807, 1754357411989353601419, 9695133066256954113105, 50414691944536161388146, 247272060489867839189478, 1146443189543932708969398, 5034380962779878417648226, 20976587344916160073534275, 83067285885867993891195729, 313099769877502438512968517, 1124839914004360612435479487, 3856593990872093528350215384, 12633669970098237420457602120, 39585499239641143917433819976, 118756497718923431752301459928, 341424930941904866287866697293, 941505112597374025218056650111, 2492219415698931243224267603235, 6337357942777282304198851905369, 15491319415677801188041637990902, 36425534842269424415124932573202, 82436736748293960518440636876194, 179669810861666324206857798319910, 377306602809499280834401376471811, 763815805687522934372080835296593, 1491259430151830490916919726055253, 2809116600983680692192337158383151, 5107484729061237622167885742514820, 8966473191018617158916954970192684, 15204019758683742139033097558152812, 24908713221673364780969117276122692, 39438795934316160903201102353860929, 60365503981096164647756789317134075, 89340945892022323678680048189358431, 127880177453286855461640068976924813, 177064861089166415254578557044972818, 237200096930770103454246746230057926, 307481607132479763736986522890815830, 385749652584383703597310365081205314, 468410292423894497225305443312892167, 550587536708788268668341485999364477, 626530645220345271243285139240656129, 690245626090210892047687017807502515, 736262001162891618184199485661336016, 760401738905937245009910944207609328, 760401738905937245009910944207609328, 736262001162891618184199485661336016, 690245626090210892047687017807502515, 626530645220345271243285139240656129, 550587536708788268668341485999364477, 468410292423894497225305443312892167, 385749652584383703597310365081205314, 307481607132479763736986522890815830, 237200096930770103454246746230057926, 177064861089166415254578557044972818, 127880177453286855461640068976924813, 89340945892022323678680048189358431, 60365503981096164647756789317134075, 39438795934316160903201102353860929, 24908713221673364780969117276122692, 15204019758683742139033097558152812, 8966473191018617158916954970192684, 5107484729061237622167885742514820, 2809116600983680692192337158383151, 1491259430151830490916919726055253, 763815805687522934372080835296593, 377306602809499280834401376471811, 179669810861666324206857798319910, 82436736748293960518440636876194, 36425534842269424415124932573202, 15491319415677801188041637990902, 6337357942777282304198851905369, 2492219415698931243224267603235, 941505112597374025218056650111, 341424930941904866287866697293, 118756497718923431752301459928, 39585499239641143917433819976, 12633669970098237420457602120, 3856593990872093528350215384, 1124839914004360612435479487, 313099769877502438512968517, 83067285885867993891195729, 20976587344916160073534275, 5034380962779878417648226, 1146443189543932708969398, 247272060489867839189478, 50414691944536161388146, 9695133066256954113105, 1754357411989353601419, 297909749205739290807, 47331455481285681717, 7012067478708989884, 964963414501237140, 122813525481975636, 14383566047438588, 1541096362225563, 150018229951161, 13159493855365, 1029873432159, 71025753942, 4249404082, 216071394, 9078630, 302621, 7503, 123, 1]

/-- Row 124 of Pascal's triangle (A007318.cpp). -/
def row124 : List Nat := [1, 124, 7626, 310124, 9381251, 225150024, 4465475476, 75275158024, 1100899186101, 14189367287524, 163177723806526, 1691114592176724, 15924662409664151, 137197091529414224, 1087776939983212776, 7977030893210227024, 54343522959994671601, 345241204687024972524, 2052267161195092892226, 11449490478246307714524, 60109825010793115501251, 297686752434404000577624, 1393715250033800548158876, 6180824152323811126617624, 26010968307696038491182501, 104043873230784153964730004, 396167055763370432404164246, 1437939683881863050948448004, 4981433904876454140785694871, 16490263960970330948807817504, 52219169209739381337891422096, 158341996958564575669735279904, 460181428660828298040168157221, 1282930043539278891505923347404, 3433724528296305268442324253346, 8829577358476213547423119508604, 21828677358455083492240489896271, 51916854257947225603166570564104, 118862271590563384933565569449396, 262106547609960284725298435196104, 556976413671165605041259174791721, 1141122408497022215206482211768404, 2255075235839353425289000561351846, 4300376031135511183109256884438404, 7916601330044918314360222900897971, 14073957920079854781084840712707504, 24170492949702359297950052528345496, 40112732980357106920002214834275504, 64347509155989525684170219629983621, 99804299915412325550957891670995004, 149706449873118488326436837506492506, 217221123345309179140320117166283244, 304945038542453270716218626021897631, 414264958019936518708825303275030744, 544681704063249867191233269120873756, 693231259716863467334296887972021144, 854159945008278200822615808394097481, 1018997829132682765893646929312256644, 1177118181929133539911626625240020606, 1316776271310556163290972157048158644, 1426507627253102510231886503468838531, 1496663740068828863194110429868945344, 1520803477811874490019821888415218656, 1496663740068828863194110429868945344, 1426507627253102510231886503468838531, 1316776271310556163290972157048158644, 1177118181929133539911626625240020606, 1018997829132682765893646929312256644, 854159945008278200822615808394097481, 693231259716863467334296887972021144, 544681704063249867191233269120873756, 414264958019936518708825303275030744, 304945038542453270716218626021897631, 217221123345309179140320117166283244, 149706449873118488326436837506492506, 99804299915412325550957891670995004, 64347509155989525684170219629983621, 40112732980357106920002214834275504, 24170492949702359297950052528345496, 14073957920079854781084840712707504, 7916601330044918314360222900897971, 4300376031135511183109256884438404, 2255075235839353425289000561351846, 1141122408497022215206482211768404, 556976413671165605041259174791721, 262106547609960284725298435196104, 118862271590563384933565569449396, 51916854257947225603166570564104, 21828677358455083492240489896271, 8829577358476213547423119508604, 3433724528296305268442324253346, 1282930043539278891505923347404, 460181428660828298040168157221, 158341996958564575669735279904, 52219169209739381337891422096, 16490263960970330948807817504, 4981433904876454140785694871, 1437939683881863050948448004, 396167055763370432404164246, 104043873230784153964730004, 26010968307696038491182501, 6180824152323811126617624, 1393715250033800548158876, 297686752434404000577624, 60109825010793115501251, 11449490478246307714524, 2052267161195092892226, 345241204687024972524, 54343522959994671601, 7977030893210227024, 1087776939983212776, 137197091529414224, 15924662409664151, 1691114592176724, 163177723806526, 14189367287524, 1100899186101, 75275158024, 4465475476, 225150024, 9381251, 310124, 7626, 124, 1]

/-- Row 125 of Pascal's triangle (A007318.cpp). -/
def row125 : List Nat := [1, 125, 7750, 317750, 9691375, 234531275, 4690625500, 79740633500, 1176174344125, 15290266473625, 177367091094050, 1854292315983250, 17615777001840875, 153121753939078375, 1224974031512627000, 9064807833193439800, 62320553853204898625, 399584727647019644125, 2397508365882117864750, 13501757639441400606750, 71559315489039423215775, 357796577445197116078875, 1691402002468204548736500, 7574539402357611674776500, 32191792460019849617800125, 130054841538480192455912505, 500210928994154586368894250, 1834106739645233483352612250, 6419373588758317191734142875, 21471697865846785089593512375, 68709433170709712286699239600, 210561166168303957007626702000, 618523425619392873709903437125, 1743111472200107189546091504625, 4716654571835584159948247600750, 12263301886772518815865443761950, 30658254716931297039663609404875, 73745531616402309095407060460375, 170779125848510610536732140013500, 380968819200523669658864004645500, 819082961281125889766557609987825, 1698098822168187820247741386560125, 3396197644336375640495482773120250, 6555451266974864608398257445790250, 12216977361180429497469479785336375, 21990559250124773095445063613605475, 38244450869782214079034893241053000, 64283225930059466217952267362621000, 104460242136346632604172434464259125, 164151809071401851235128111300978625, 249510749788530813877394729177487510, 366927573218427667466756954672775750, 522166161887762449856538743188180875, 719209996562389789425043929296928375, 958946662083186385900058572395904500, 1237912963780113334525530157092894900, 1547391204725141668156912696366118625, 1873157774140960966716262737706354125, 2196116011061816305805273554552277250, 2493894453239689703202598782288179250, 2743283898563658673522858660516997175, 2923171367321931373425996933337783875, 3017467217880703353213932318284164000, 3017467217880703353213932318284164000, 2923171367321931373425996933337783875, 2743283898563658673522858660516997175, 2493894453239689703202598782288179250, 2196116011061816305805273554552277250, 1873157774140960966716262737706354125, 1547391204725141668156912696366118625, 1237912963780113334525530157092894900, 958946662083186385900058572395904500, 719209996562389789425043929296928375, 522166161887762449856538743188180875, 366927573218427667466756954672775750, 249510749788530813877394729177487510, 164151809071401851235128111300978625, 104460242136346632604172434464259125, 64283225930059466217952267362621000, 38244450869782214079034893241053000, 21990559250124773095445063613605475, 12216977361180429497469479785336375, 6555451266974864608398257445790250, 3396197644336375640495482773120250, 1698098822168187820247741386560125, 819082961281125889766557609987825, 380968819200523669658864004645500, 170779125848510610536732140013500, 73745531616402309095407060460375, 30658254716931297039663609404875, 12263301886772518815865443761950, 4716654571835584159948247600750, 1743111472200107189546091504625, 618523425619392873709903437125, 210561166168303957007626702000, 68709433170709712286699239600, 21471697865846785089593512375, 6419373588758317191734142875, 1834106739645233483352612250, 500210928994154586368894250, 130054841538480192455912505, 32191792460019849617800125, 7574539402357611674776500, 1691402002468204548736500, 357796577445197116078875, 71559315489039423215775, 13501757639441400606750, 2397508365882117864750, 399584727647019644125, 62320553853204898625, 9064807833193439800, 1224974031512627000, 153121753939078375, 17615777001840875, 1854292315983250, 177367091094050, 15290266473625, 1176174344125, 79740633500, 4690625500, 234531275, 9691375, 317750, 7750, 125, 1]

/-- Row 126 of Pascal's triangle (A007318.cpp). -/
def row126 : List Nat := [1, 126, 7875, 325500, 10009125, 244222650, 4925156775, 84431259000, 1255914977625, 16466440817750, 192657357567675, 2031659407077300, 19470069317824125, 170737530940919250, 1378095785451705375, 10289781864706066800, 71385361686398338425, 461905281500224542750, 2797093093529137508875, 15899266005323518471500, 85061073128480823822525, 429355892934236539294650, 2049198579913401664815375, 9265941404825816223513000, 39766331862377461292576625, 162246633998500042073712630, 630265770532634778824806755, 2334317668639388069721506500, 8253480328403550675086755125, 27891071454605102281327655250, 90181131036556497376292751975, 279270599339013669294325941600, 829084591787696830717530139125, 2361634897819500063255994941750, 6459766044035691349494339105375, 16979956458608102975813691362700, 42921556603703815855529053166825, 104403786333333606135070669865250, 244524657464912919632139200473875, 551747945049034280195596144659000, 1200051780481649559425421614633325, 2517181783449313710014298996547950, 5094296466504563460743224159680375, 9951648911311240248893740218910500, 18772428628155294105867737231126625, 34207536611305202592914543398941850, 60235010119906987174479956854658475, 102527676799841680296987160603674000, 168743468066406098822124701826880125, 268612051207748483839300545765237750, 413662558859932665112522840478466135, 616438323006958481344151683850263260, 889093735106190117323295697860956625, 1241376158450152239281582672485109250, 1678156658645576175325102501692832875, 2196859625863299720425588729488799400, 2785304168505255002682442853459013525, 3420548978866102634873175434072472750, 4069273785202777272521536292258631375, 4690010464301506009007872336840456500, 5237178351803348376725457442805176425, 5666455265885590046948855593854781050, 5940638585202634726639929251621947875, 6034934435761406706427864636568328000, 5940638585202634726639929251621947875, 5666455265885590046948855593854781050, 5237178351803348376725457442805176425, 4690010464301506009007872336840456500, 4069273785202777272521536292258631375, 3420548978866102634873175434072472750, 2785304168505255002682442853459013525, 2196859625863299720425588729488799400, 1678156658645576175325102501692832875, 1241376158450152239281582672485109250, 889093735106190117323295697860956625, 616438323006958481344151683850263260, 413662558859932665112522840478466135, 268612051207748483839300545765237750, 168743468066406098822124701826880125, 102527676799841680296987160603674000, 60235010119906987174479956854658475, 34207536611305202592914543398941850, 18772428628155294105867737231126625, 9951648911311240248893740218910500, 5094296466504563460743224159680375, 2517181783449313710014298996547950, 1200051780481649559425421614633325, 551747945049034280195596144659000, 244524657464912919632139200473875, 104403786333333606135070669865250, 42921556603703815855529053166825, 16979956458608102975813691362700, 6459766044035691349494339105375, 2361634897819500063255994941750, 829084591787696830717530139125, 279270599339013669294325941600, 90181131036556497376292751975, 27891071454605102281327655250, 8253480328403550675086755125, 2334317668639388069721506500, 630265770532634778824806755, 162246633998500042073712630, 39766331862377461292576625, 9265941404825816223513000, 2049198579913401664815375, 429355892934236539294650, 85061073128480823822525, 15899266005323518471500, 2797093093529137508875, 461905281500224542750, 71385361686398338425, 10289781864706066800, 1378095785451705375, 170737530940919250, 19470069317824125, 2031659407077300, 192657357567675, 16466440817750, 1255914977625, 84431259000, 4925156775, 244222650, 10009125, 325500, 7875, 126, 1]

/-- Row 127 of Pascal's triangle (A007318.cpp). -/
def row127 : List Nat := [1, 127, 8001, 333375, 10334625, 254231775, 5169379425, 89356415775, 1340346236625, 17722355795375, 209123798385425, 2224316764644975, 21501728724901425, 190207600258743375, 1548833316392624625, 11667877650157772175, 81675143551104405225, 533290643186622881175, 3258998375029362051625, 18696359098852655980375, 100960339133804342294025, 514416966062717363117175, 2478554472847638204110025, 11315139984739217888328375, 49032273267203277516089625, 202012965860877503366289255, 792512404531134820898519385, 2964583439172022848546313255, 10587797997042938744808261625, 36144551783008652956414410375, 118072202491161599657620407225, 369451730375570166670618693575, 1108355191126710500011856080725, 3190719489607196893973525080875, 8821400941855191412750334047125, 23439722502643794325308030468075, 59901513062311918831342744529525, 147325342937037421990599723032075, 348928443798246525767209870339125, 796272602513947199827735345132875, 1751799725530683839621017759292325, 3717233563930963269439720611181275, 7611478249953877170757523156228325, 15045945377815803709636964378590875, 28724077539466534354761477450037125, 52979965239460496698782280630068475, 94442546731212189767394500253600325, 162762686919748667471467117458332475, 271271144866247779119111862430554125, 437355519274154582661425247592117875, 682274610067681148951823386243703885, 1030100881866891146456674524328729395, 1505532058113148598667447381711219885, 2130469893556342356604878370346065875, 2919532817095728414606685174177942125, 3875016284508875895750691231181632275, 4982163794368554723108031582947812925, 6205853147371357637555618287531486275, 7489822764068879907394711726331104125, 8759284249504283281529408629099087875, 9927188816104854385733329779645632925, 10903633617688938423674313036659957475, 11607093851088224773588784845476728925, 11975573020964041433067793888190275875, 11975573020964041433067793888190275875, 11607093851088224773588784845476728925, 10903633617688938423674313036659957475, 9927188816104854385733329779645632925, 8759284249504283281529408629099087875, 7489822764068879907394711726331104125, 6205853147371357637555618287531486275, 4982163794368554723108031582947812925, 3875016284508875895750691231181632275, 2919532817095728414606685174177942125, 2130469893556342356604878370346065875, 1505532058113148598667447381711219885, 1030100881866891146456674524328729395, 682274610067681148951823386243703885, 437355519274154582661425247592117875, 271271144866247779119111862430554125, 162762686919748667471467117458332475, 94442546731212189767394500253600325, 52979965239460496698782280630068475, 28724077539466534354761477450037125, 15045945377815803709636964378590875, 7611478249953877170757523156228325, 3717233563930963269439720611181275, 1751799725530683839621017759292325, 796272602513947199827735345132875, 348928443798246525767209870339125, 147325342937037421990599723032075, 59901513062311918831342744529525, 23439722502643794325308030468075, 8821400941855191412750334047125, 3190719489607196893973525080875, 1108355191126710500011856080725, 369451730375570166670618693575, 118072202491161599657620407225, 36144551783008652956414410375, 10587797997042938744808261625, 2964583439172022848546313255, 792512404531134820898519385, 202012965860877503366289255, 49032273267203277516089625, 11315139984739217888328375, 2478554472847638204110025, 514416966062717363117175, 100960339133804342294025, 18696359098852655980375, 3258998375029362051625, 533290643186622881175, 81675143551104405225, 11667877650157772175, 1548833316392624625, 190207600258743375, 21501728724901425, 2224316764644975, 209123798385425, 17722355795375, 1340346236625, 89356415775, 5169379425, 254231775, 10334625, 333375, 8001, 127, 1]

/-- Row 128 of Pascal's triangle (A007318.cpp). -/
def row128 : List Nat := [1, 128, 8128, 341376, 10668000, 264566400, 5423611200, 94525795200, 1429702652400, 19062702032000, 226846154180800, 2433440563030400, 23726045489546400, 211709328983644800, 1739040916651368000, 13216710966550396800, 93343021201262177400, 614965786737727286400, 3792289018215984932800, 21955357473882018032000, 119656698232656998274400, 615377305196521705411200, 2992971438910355567227200, 13793694457586856092438400, 60347413251942495404418000, 251045239128080780882378880, 994525370392012324264808640, 3757095843703157669444832640, 13552381436214961593354574880, 46732349780051591701222672000, 154216754274170252614034817600, 487523932866731766328239100800, 1477806921502280666682474774300, 4299074680733907393985381161600, 12012120431462388306723859128000, 32261123444498985738058364515200, 83341235564955713156650774997600, 207226855999349340821942467561600, 496253786735283947757809593371200, 1145201046312193725594945215472000, 2548072328044631039448753104425200, 5469033289461647109060738370473600, 11328711813884840440197243767409600, 22657423627769680880394487534819200, 43770022917282338064398441828628000, 81704042778927031053543758080105600, 147422511970672686466176780883668800, 257205233650960857238861617711932800, 434033831785996446590578979888886600, 708626664140402361780537110022672000, 1119630129341835731613248633835821760, 1712375491934572295408497910572433280, 2535632939980039745124121906039949280, 3636001951669490955272325752057285760, 5050002710652070771211563544524008000, 6794549101604604310357376405359574400, 8857180078877430618858722814129445200, 11188016941739912360663649870479299200, 13695675911440237544950330013862590400, 16249107013573163188924120355430192000, 18686473065609137667262738408744720800, 20830822433793792809407642816305590400, 22510727468777163197263097882136686400, 23582666872052266206656578733667004800, 23951146041928082866135587776380551750, 23582666872052266206656578733667004800, 22510727468777163197263097882136686400, 20830822433793792809407642816305590400, 18686473065609137667262738408744720800, 16249107013573163188924120355430192000, 13695675911440237544950330013862590400, 11188016941739912360663649870479299200, 8857180078877430618858722814129445200, 6794549101604604310357376405359574400, 5050002710652070771211563544524008000, 3636001951669490955272325752057285760, 2535632939980039745124121906039949280, 1712375491934572295408497910572433280, 1119630129341835731613248633835821760, 708626664140402361780537110022672000, 434033831785996446590578979888886600, 257205233650960857238861617711932800, 147422511970672686466176780883668800, 81704042778927031053543758080105600, 43770022917282338064398441828628000, 22657423627769680880394487534819200, 11328711813884840440197243767409600, 5469033289461647109060738370473600, 2548072328044631039448753104425200, 1145201046312193725594945215472000, 496253786735283947757809593371200, 207226855999349340821942467561600, 83341235564955713156650774997600, 32261123444498985738058364515200, 12012120431462388306723859128000, 4299074680733907393985381161600, 1477806921502280666682474774300, 487523932866731766328239100800, 154216754274170252614034817600, 46732349780051591701222672000, 13552381436214961593354574880, 3757095843703157669444832640, 994525370392012324264808640, 251045239128080780882378880, 60347413251942495404418000, 13793694457586856092438400, 2992971438910355567227200, 615377305196521705411200, 119656698232656998274400, 21955357473882018032000, 3792289018215984932800, 614965786737727286400, 93343021201262177400, 13216710966550396800, 1739040916651368000, 211709328983644800, 23726045489546400, 2433440563030400, 226846154180800, 19062702032000, 1429702652400, 94525795200, 5423611200, 264566400, 10668000, 341376, 8128, 128, 1]

/-- Row 129 of Pascal's triangle (A007318.cpp). -/
def row129 : List Nat := [1, 129, 8256, 349504, 11009376, 275234400, 5688177600, 99949406400, 1524228447600, 20492404684400, 245908856212800, 2660286717211200, 26159486052576800, 235435374473191200, 1950750245635012800, 14955751883201764800, 106559732167812574200, 708308807938989463800, 4407254804953712219200, 25747646492098002964800, 141612055706539016306400, 735034003429178703685600, 3608348744106877272638400, 16786665896497211659665600, 74141107709529351496856400, 311392652380023276286796880, 1245570609520093105147187520, 4751621214095169993709641280, 17309477279918119262799407520, 60284731216266553294577246880, 200949104054221844315257489600, 641740687140902018942273918400, 1965330854369012433010713875100, 5776881602236188060667855935900, 16311195112196295700709240289600, 44273243875961374044782223643200, 115602359009454698894709139512800, 290568091564305053978593242559200, 703480642734633288579752060932800, 1641454833047477673352754808843200, 3693273374356824765043698319897200, 8017105617506278148509491474898800, 16797745103346487549257982137883200, 33986135441654521320591731302228800, 66427446545052018944792929363447200, 125474065696209369117942199908733600, 229126554749599717519720538963774400, 404627745621633543705038398595601600, 691239065436957303829440597600819400, 1142660495926398808371116089911558600, 1828256793482238093393785743858493760, 2832005621276408027021746544408255040, 4248008431914612040532619816612382560, 6171634891649530700396447658097235040, 8686004662321561726483889296581293760, 11844551812256675081568939949883582400, 15651729180482034929216099219489019600, 20045197020617342979522372684608744400, 24883692853180149905613979884341889600, 29944782925013400733874450369292782400, 34935580079182300856186858764174912800, 39517295499402930476670381225050311200, 43341549902570956006670740698442276800, 46093394340829429403919676615803691200, 47533812913980349072792166510047556550, 47533812913980349072792166510047556550, 46093394340829429403919676615803691200, 43341549902570956006670740698442276800, 39517295499402930476670381225050311200, 34935580079182300856186858764174912800, 29944782925013400733874450369292782400, 24883692853180149905613979884341889600, 20045197020617342979522372684608744400, 15651729180482034929216099219489019600, 11844551812256675081568939949883582400, 8686004662321561726483889296581293760, 6171634891649530700396447658097235040, 4248008431914612040532619816612382560, 2832005621276408027021746544408255040, 1828256793482238093393785743858493760, 1142660495926398808371116089911558600, 691239065436957303829440597600819400, 404627745621633543705038398595601600, 229126554749599717519720538963774400, 125474065696209369117942199908733600, 66427446545052018944792929363447200, 33986135441654521320591731302228800, 16797745103346487549257982137883200, 8017105617506278148509491474898800, 3693273374356824765043698319897200, 1641454833047477673352754808843200, 703480642734633288579752060932800, 290568091564305053978593242559200, 115602359009454698894709139512800, 44273243875961374044782223643200, 16311195112196295700709240289600, 5776881602236188060667855935900, 1965330854369012433010713875100, 641740687140902018942273918400, 200949104054221844315257489600, 60284731216266553294577246880, 17309477279918119262799407520, 4751621214095169993709641280, 1245570609520093105147187520, 311392652380023276286796880, 74141107709529351496856400, 16786665896497211659665600, 3608348744106877272638400, 735034003429178703685600, 141612055706539016306400, 25747646492098002964800, 4407254804953712219200, 708308807938989463800, 106559732167812574200, 14955751883201764800, 1950750245635012800, 235435374473191200, 26159486052576800, 2660286717211200, 245908856212800, 20492404684400, 1524228447600, 99949406400, 5688177600, 275234400, 11009376, 349504, 8256, 129, 1]

/-- Row 130 of Pascal's triangle (A007318.cpp). -/
def row130 : List Nat := [1, 130, 8385, 357760, 11358880, 286243776, 5963412000, 105637584000, 1624177854000, 22016633132000, 266401260897200, 2906195573424000, 28819772769788000, 261594860525768000, 2186185620108204000, 16906502128836777600, 121515484051014339000, 814868540106802038000, 5115563612892701683000, 30154901297051715184000, 167359702198637019271200, 876646059135717719992000, 4343382747536055976324000, 20395014640604088932304000, 90927773606026563156522000, 385533760089552627783653280, 1556963261900116381433984400, 5997191823615263098856828800, 22061098494013289256509048800, 77594208496184672557376654400, 261233835270488397609834736480, 842689791195123863257531408000, 2607071541509914451952987793500, 7742212456605200493678569811000, 22088076714432483761377096225500, 60584438988157669745491463932800, 159875602885416072939491363156000, 406170450573759752873302382072000, 994048734298938342558345303492000, 2344935475782110961932506869776000, 5334728207404302438396453128740400, 11710378991863102913553189794796000, 24814850720852765697767473612782000, 50783880545001008869849713440112000, 100413581986706540265384660665676000, 191901512241261388062735129272180800, 354600620445809086637662738872508000, 633754300371233261224758937559376000, 1095866811058590847534478996196421000, 1833899561363356112200556687512378000, 2970917289408636901764901833770052360, 4660262414758646120415532288266748800, 7080014053191020067554366361020637600, 10419643323564142740929067474709617600, 14857639553971092426880336954678528800, 20530556474578236808052829246464876160, 27496280992738710010785039169372602000, 35696926201099377908738471904097764000, 44928889873797492885136352568950634000, 54828475778193550639488430253634672000, 64880363004195701590061309133467695200, 74452875578585231332857239989225224000, 82858845401973886483341121923492588000, 89434944243400385410590417314245968000, 93627207254809778476711843125851247750, 95067625827960698145584333020095113100, 93627207254809778476711843125851247750, 89434944243400385410590417314245968000, 82858845401973886483341121923492588000, 74452875578585231332857239989225224000, 64880363004195701590061309133467695200, 54828475778193550639488430253634672000, 44928889873797492885136352568950634000, 35696926201099377908738471904097764000, 27496280992738710010785039169372602000, 20530556474578236808052829246464876160, 14857639553971092426880336954678528800, 10419643323564142740929067474709617600, 7080014053191020067554366361020637600, 4660262414758646120415532288266748800, 2970917289408636901764901833770052360, 1833899561363356112200556687512378000, 1095866811058590847534478996196421000, 633754300371233261224758937559376000, 354600620445809086637662738872508000, 191901512241261388062735129272180800, 100413581986706540265384660665676000, 50783880545001008869849713440112000, 24814850720852765697767473612782000, 11710378991863102913553189794796000, 5334728207404302438396453128740400, 2344935475782110961932506869776000, 994048734298938342558345303492000, 406170450573759752873302382072000, 159875602885416072939491363156000, 60584438988157669745491463932800, 22088076714432483761377096225500, 7742212456605200493678569811000, 2607071541509914451952987793500, 842689791195123863257531408000, 261233835270488397609834736480, 77594208496184672557376654400, 22061098494013289256509048800, 5997191823615263098856828800, 1556963261900116381433984400, 385533760089552627783653280, 90927773606026563156522000, 20395014640604088932304000, 4343382747536055976324000, 876646059135717719992000, 167359702198637019271200, 30154901297051715184000, 5115563612892701683000, 814868540106802038000, 121515484051014339000, 16906502128836777600, 2186185620108204000, 261594860525768000, 28819772769788000, 2906195573424000, 266401260897200, 22016633132000, 1624177854000, 105637584000, 5963412000, 286243776, 11358880, 357760, 8385, 130, 1]

/-- Row 131 of Pascal's triangle (A007318.cpp). -/
def row131 : List Nat := [1, 131, 8515, 366145, 11716640, 297602656, 6249655776, 111600996000, 1729815438000, 23640810986000, 288417894029200, 3172596834321200, 31725968343212000, 290414633295556000, 2447780480633972000, 19092687748944981600, 138421986179851116600, 936384024157816377000, 5930432152999503721000, 35270464909944416867000, 197514603495688734455200, 1044005761334354739263200, 5220028806671773696316000, 24738397388140144908628000, 111322788246630652088826000, 476461533695579190940175280, 1942497021989669009217637680, 7554155085515379480290813200, 28058290317628552355365877600, 99655306990197961813885703200, 338828043766673070167211390880, 1103923626465612260867366144480, 3449761332705038315210519201500, 10349283998115114945631557604500, 29830289171037684255055666036500, 82672515702590153506868560158300, 220460041873573742684982827088800, 566046053459175825812793745228000, 1400219184872698095431647685564000, 3338984210081049304490852173268000, 7679663683186413400328959998516400, 17045107199267405351949642923536400, 36525229712715868611320663407578000, 75598731265853774567617187052894000, 151197462531707549135234374105788000, 292315094227967928328119789937856800, 546502132687070474700397868144688800, 988354920817042347862421676431884000, 1729621111429824108759237933755797000, 2929766372421946959735035683708799000, 4804816850771993013965458521282430360, 7631179704167283022180434122036801160, 11740276467949666187969898649287386400, 17499657376755162808483433835730255200, 25277282877535235167809404429388146400, 35388196028549329234933166201143404960, 48026837467316946818837868415837478160, 63193207193838087919523511073470366000, 80625816074896870793874824473048398000, 99757365651991043524624782822585306000, 119708838782389252229549739387102367200, 139333238582780932922918549122692919200, 157311720980559117816198361912717812000, 172293789645374271893931539237738556000, 183062151498210163887302260440097215750, 188694833082770476622296176145946360850, 188694833082770476622296176145946360850, 183062151498210163887302260440097215750, 172293789645374271893931539237738556000, 157311720980559117816198361912717812000, 139333238582780932922918549122692919200, 119708838782389252229549739387102367200, 99757365651991043524624782822585306000, 80625816074896870793874824473048398000, 63193207193838087919523511073470366000, 48026837467316946818837868415837478160, 35388196028549329234933166201143404960, 25277282877535235167809404429388146400, 17499657376755162808483433835730255200, 11740276467949666187969898649287386400, 7631179704167283022180434122036801160, 4804816850771993013965458521282430360, 2929766372421946959735035683708799000, 1729621111429824108759237933755797000, 988354920817042347862421676431884000, 546502132687070474700397868144688800, 292315094227967928328119789937856800, 151197462531707549135234374105788000, 75598731265853774567617187052894000, 36525229712715868611320663407578000, 17045107199267405351949642923536400, 7679663683186413400328959998516400, 3338984210081049304490852173268000, 1400219184872698095431647685564000, 566046053459175825812793745228000, 220460041873573742684982827088800, 82672515702590153506868560158300, 29830289171037684255055666036500, 10349283998115114945631557604500, 3449761332705038315210519201500, 1103923626465612260867366144480, 338828043766673070167211390880, 99655306990197961813885703200, 28058290317628552355365877600, 7554155085515379480290813200, 1942497021989669009217637680, 476461533695579190940175280, 111322788246630652088826000, 24738397388140144908628000, 5220028806671773696316000, 1044005761334354739263200, 197514603495688734455200, 35270464909944416867000, 5930432152999503721000, 936384024157816377000, 138421986179851116600, 19092687748944981600, 2447780480633972000, 290414633295556000, 31725968343212000, 3172596834321200, 288417894029200, 23640810986000, 1729815438000, 111600996000, 6249655776, 297602656, 11716640, 366145, 8515, 131, 1]

/-- Row 132 of Pascal's triangle (A007318.cpp). -/
def row132 : List Nat := [1, 132, 8646, 374660, 12082785, 309319296, 6547258432, 117850651776, 1841416434000, 25370626424000, 312058705015200, 3461014728350400, 34898565177533200, 322140601638768000, 2738195113929528000, 21540468229578953600, 157514673928796098200, 1074806010337667493600, 6866816177157320098000, 41200897062943920588000, 232785068405633151322200, 1241520364830043473718400, 6264034568006128435579200, 29958426194811918604944000, 136061185634770796997454000, 587784321942209843029001280, 2418958555685248200157812960, 9496652107505048489508450880, 35612445403143931835656690800, 127713597307826514169251580800, 438483350756871031981097094080, 1442751670232285331034577535360, 4553684959170650576077885345980, 13799045330820153260842076806000, 40179573169152799200687223641000, 112502804873627837761924226194800, 303132557576163896191851387247100, 786506095332749568497776572316800, 1966265238331873921244441430792000, 4739203394953747399922499858832000, 11018647893267462704819812171784400, 24724770882453818752278602922052800, 53570336911983273963270306331114400, 112123960978569643178937850460472000, 226796193797561323702851561158682000, 443512556759675477463354164043644800, 838817226915038403028517658082545600, 1534857053504112822562819544576572800, 2717976032246866456621659610187681000, 4659387483851771068494273617464596000, 7734583223193939973700494204991229360, 12435996554939276036145892643319231520, 19371456172116949210150332771324187560, 29239933844704828996453332485017641600, 42776940254290397976292838265118401600, 60665478906084564402742570630531551360, 83415033495866276053771034616980883120, 111220044661155034738361379489307844160, 143819023268734958713398335546518764000, 180383181726887914318499607295633704000, 219466204434380295754174522209687673200, 259042077365170185152468288509795286400, 296644959563340050739116911035410731200, 329605510625933389710129901150456368000, 355355941143584435781233799677835771750, 371756984580980640509598436586043576600, 377389666165540953244592352291892721700, 371756984580980640509598436586043576600, 355355941143584435781233799677835771750, 329605510625933389710129901150456368000, 296644959563340050739116911035410731200, 259042077365170185152468288509795286400, 219466204434380295754174522209687673200, 180383181726887914318499607295633704000, 143819023268734958713398335546518764000, 111220044661155034738361379489307844160, 83415033495866276053771034616980883120, 60665478906084564402742570630531551360, 42776940254290397976292838265118401600, 29239933844704828996453332485017641600, 19371456172116949210150332771324187560, 12435996554939276036145892643319231520, 7734583223193939973700494204991229360, 4659387483851771068494273617464596000, 2717976032246866456621659610187681000, 1534857053504112822562819544576572800, 838817226915038403028517658082545600, 443512556759675477463354164043644800, 226796193797561323702851561158682000, 112123960978569643178937850460472000, 53570336911983273963270306331114400, 24724770882453818752278602922052800, 11018647893267462704819812171784400, 4739203394953747399922499858832000, 1966265238331873921244441430792000, 786506095332749568497776572316800, 303132557576163896191851387247100, 112502804873627837761924226194800, 40179573169152799200687223641000, 13799045330820153260842076806000, 4553684959170650576077885345980, 1442751670232285331034577535360, 438483350756871031981097094080, 127713597307826514169251580800, 35612445403143931835656690800, 9496652107505048489508450880, 2418958555685248200157812960, 587784321942209843029001280, 136061185634770796997454000, 29958426194811918604944000, 6264034568006128435579200, 1241520364830043473718400, 232785068405633151322200, 41200897062943920588000, 6866816177157320098000, 1074806010337667493600, 157514673928796098200, 21540468229578953600, 2738195113929528000, 322140601638768000, 34898565177533200, 3461014728350400, 312058705015200, 25370626424000, 1841416434000, 117850651776, 6547258432, 309319296, 12082785, 374660, 8646, 132, 1]

/-- Row 133 of Pascal's triangle (A007318.cpp). -/
def row133 : List Nat := [1, 133, 8778, 383306, 12457445, 321402081, 6856577728, 124397910208, 1959267085776, 27212042858000, 337429331439200, 3773073433365600, 38359579905883600, 357039166816301200, 3060335715568296000, 24278663343508481600, 179055142158375051800, 1232320684266463591800, 7941622187494987591600, 48067713240101240686000, 273985965468577071910200, 1474305433235676625040600, 7505554932836171909297600, 36222460762818047040523200, 166019611829582715602398000, 723845507576980640026455280, 3006742877627458043186814240, 11915610663190296689666263840, 45109097510648980325165141680, 163326042710970446004908271600, 566196948064697546150348674880, 1881235020989156363015674629440, 5996436629402935907112462881340, 18352730289990803836919962151980, 53978618499972952461529300447000, 152682378042780636962611449835800, 415635362449791733953775613441900, 1089638652908913464689627959563900, 2752771333664623489742218003108800, 6705468633285621321166941289624000, 15757851288221210104742312030616400, 35743418775721281457098415093837200, 78295107794437092715548909253167200, 165694297890552917142208156791586400, 338920154776130966881789411619154000, 670308750557236801166205725202326800, 1282329783674713880491871822126190400, 2373674280419151225591337202659118400, 4252833085750979279184479154764253800, 7377363516098637525115933227652277000, 12393970707045711042194767822455825360, 20170579778133216009846386848310460880, 31807452727056225246296225414643419080, 48611390016821778206603665256341829160, 72016874098995226972746170750136043200, 103442419160374962379035408895649952960, 144080512401950840456513605247512434480, 194635078157021310792132414106288727280, 255039067929889993451759715035826608160, 324202204995622873031897942842152468000, 399849386161268210072674129505321377200, 478508281799550480906642810719482959600, 555687036928510235891585199545206017600, 626250470189273440449246812185867099200, 684961451769517825491363700828292139750, 727112925724565076290832236263879348350, 749146650746521593754190788877936298300, 749146650746521593754190788877936298300, 727112925724565076290832236263879348350, 684961451769517825491363700828292139750, 626250470189273440449246812185867099200, 555687036928510235891585199545206017600, 478508281799550480906642810719482959600, 399849386161268210072674129505321377200, 324202204995622873031897942842152468000, 255039067929889993451759715035826608160, 194635078157021310792132414106288727280, 144080512401950840456513605247512434480, 103442419160374962379035408895649952960, 72016874098995226972746170750136043200, 48611390016821778206603665256341829160, 31807452727056225246296225414643419080, 20170579778133216009846386848310460880, 12393970707045711042194767822455825360, 7377363516098637525115933227652277000, 4252833085750979279184479154764253800, 2373674280419151225591337202659118400, 1282329783674713880491871822126190400, 670308750557236801166205725202326800, 338920154776130966881789411619154000, 165694297890552917142208156791586400, 78295107794437092715548909253167200, 35743418775721281457098415093837200, 15757851288221210104742312030616400, 6705468633285621321166941289624000, 2752771333664623489742218003108800, 1089638652908913464689627959563900, 415635362449791733953775613441900, 152682378042780636962611449835800, 53978618499972952461529300447000, 18352730289990803836919962151980, 5996436629402935907112462881340, 1881235020989156363015674629440, 566196948064697546150348674880, 163326042710970446004908271600, 45109097510648980325165141680, 11915610663190296689666263840, 3006742877627458043186814240, 723845507576980640026455280, 166019611829582715602398000, 36222460762818047040523200, 7505554932836171909297600, 1474305433235676625040600, 273985965468577071910200, 48067713240101240686000, 7941622187494987591600, 1232320684266463591800, 179055142158375051800, 24278663343508481600, 3060335715568296000, 357039166816301200, 38359579905883600, 3773073433365600, 337429331439200, 27212042858000, 1959267085776, 124397910208, 6856577728, 321402081, 12457445, 383306, 8778, 133, 1]

/-- Row 134 of Pascal's triangle (A007318.cpp). -/
def row134 : List Nat := [1, 134, 8911, 392084, 12840751, 333859526, 7177979809, 131254487936, 2083664995984, 29171309943776, 364641374297200, 4110502764804800, 42132653339249200, 395398746722184800, 3417374882384597200, 27338999059076777600, 203333805501883533400, 1411375826424838643600, 9173942871761451183400, 56009335427596228277600, 322053678708678312596200, 1748291398704253696950800, 8979860366071848534338200, 43728015695654218949820800, 202242072592400762642921200, 889865119406563355628853280, 3730588385204438683213269520, 14922353540817754732853078080, 57024708173839277014831405520, 208435140221619426330073413280, 729522990775667992155256946480, 2447431969053853909166023304320, 7877671650392092270128137510780, 24349166919393739744032425033320, 72331348789963756298449262598980, 206660996542753589424140750282800, 568317740492572370916387063277700, 1505274015358705198643403573005800, 3842409986573536954431845962672700, 9458239966950244810909159292732800, 22463319921506831425909253320240400, 51501270063942491561840727124453600, 114038526570158374172647324347004400, 243989405684990009857757066044753600, 504614452666683884023997568410740400, 1009228905333367768047995136821480800, 1952638534231950681658077547328517200, 3656004064093865106083209024785308800, 6626507366170130504775816357423372200, 11630196601849616804300412382416530800, 19771334223144348567310701050108102360, 32564550485178927052041154670766286240, 51978032505189441256142612262953879960, 80418842743878003452899890670985248240, 120628264115817005179349836006477872360, 175459293259370189351781579645785996160, 247522931562325802835549014143162387440, 338715590558972151248646019353801161760, 449674146086911304243892129142115335440, 579241272925512866483657657877979076160, 724051591156891083104572072347473845200, 878357667960818690979316940224804336800, 1034195318728060716798228010264688977200, 1181937507117783676340832011731073116800, 1311211921958791265940610513014159238950, 1412074377494082901782195937092171488100, 1476259576471086670045023025141815646650, 1498293301493043187508381577755872596600, 1476259576471086670045023025141815646650, 1412074377494082901782195937092171488100, 1311211921958791265940610513014159238950, 1181937507117783676340832011731073116800, 1034195318728060716798228010264688977200, 878357667960818690979316940224804336800, 724051591156891083104572072347473845200, 579241272925512866483657657877979076160, 449674146086911304243892129142115335440, 338715590558972151248646019353801161760, 247522931562325802835549014143162387440, 175459293259370189351781579645785996160, 120628264115817005179349836006477872360, 80418842743878003452899890670985248240, 51978032505189441256142612262953879960, 32564550485178927052041154670766286240, 19771334223144348567310701050108102360, 11630196601849616804300412382416530800, 6626507366170130504775816357423372200, 3656004064093865106083209024785308800, 1952638534231950681658077547328517200, 1009228905333367768047995136821480800, 504614452666683884023997568410740400, 243989405684990009857757066044753600, 114038526570158374172647324347004400, 51501270063942491561840727124453600, 22463319921506831425909253320240400, 9458239966950244810909159292732800, 3842409986573536954431845962672700, 1505274015358705198643403573005800, 568317740492572370916387063277700, 206660996542753589424140750282800, 72331348789963756298449262598980, 24349166919393739744032425033320, 7877671650392092270128137510780, 2447431969053853909166023304320, 729522990775667992155256946480, 208435140221619426330073413280, 57024708173839277014831405520, 14922353540817754732853078080, 3730588385204438683213269520, 889865119406563355628853280, 202242072592400762642921200, 43728015695654218949820800, 8979860366071848534338200, 1748291398704253696950800, 322053678708678312596200, 56009335427596228277600, 9173942871761451183400, 1411375826424838643600, 203333805501883533400, 27338999059076777600, 3417374882384597200, 395398746722184800, 42132653339249200, 4110502764804800, 364641374297200, 29171309943776, 2083664995984, 131254487936, 7177979809, 333859526, 12840751, 392084, 8911, 134, 1]

/-- Row 135 of Pascal's triangle (A007318.cpp). -/
def row135 : List Nat := [1, 135, 9045, 400995, 13232835, 346700277, 7511839335, 138432467745, 2214919483920, 31254974939760, 393812684240976, 4475144139102000, 46243156104054000, 437531400061434000, 3812773629106782000, 30756373941461374800, 230672804560960311000, 1614709631926722177000, 10585318698186289827000, 65183278299357679461000, 378063014136274540873800, 2070345077412932009547000, 10728151764776102231289000, 52707876061726067484159000, 245970088288054981592742000, 1092107191998964118271774480, 4620453504611002038842122800, 18652941926022193416066347600, 71947061714657031747684483600, 265459848395458703344904818800, 937958130997287418485330359760, 3176954959829521901321280250800, 10325103619445946179294160815100, 32226838569785832014160562544100, 96680515709357496042481687632300, 278992345332717345722590012881780, 774978737035325960340527813560500, 2073591755851277569559790636283500, 5347684001932242153075249535678500, 13300649953523781765341005255405500, 31921559888457076236818412612973200, 73964589985449322987749980444694000, 165539796634100865734488051471458000, 358027932255148384030404390391758000, 748603858351673893881754634455494000, 1513843358000051652071992705232221200, 2961867439565318449706072684149998000, 5608642598325815787741286572113826000, 10282511430263995610859025382208681000, 18256703968019747309076228739839903000, 31401530824993965371611113432524633160, 52335884708323275619351855720874388600, 84542582990368368308183766933720166200, 132396875249067444709042502933939128200, 201047106859695008632249726677463120600, 296087557375187194531131415652263868520, 422982224821695992187330593788948383600, 586238522121297954084195033496963549200, 788389736645883455492538148495916497200, 1028915419012424170727549787020094411600, 1303292864082403949588229730225452921360, 1602409259117709774083889012572278182000, 1912552986688879407777544950489493314000, 2216132825845844393139060021995762094000, 2493149429076574942281442524745232355750, 2723286299452874167722806450106330727050, 2888333953965169571827218962233987134750, 2974552877964129857553404602897688243250, 2974552877964129857553404602897688243250, 2888333953965169571827218962233987134750, 2723286299452874167722806450106330727050, 2493149429076574942281442524745232355750, 2216132825845844393139060021995762094000, 1912552986688879407777544950489493314000, 1602409259117709774083889012572278182000, 1303292864082403949588229730225452921360, 1028915419012424170727549787020094411600, 788389736645883455492538148495916497200, 586238522121297954084195033496963549200, 422982224821695992187330593788948383600, 296087557375187194531131415652263868520, 201047106859695008632249726677463120600, 132396875249067444709042502933939128200, 84542582990368368308183766933720166200, 52335884708323275619351855720874388600, 31401530824993965371611113432524633160, 18256703968019747309076228739839903000, 10282511430263995610859025382208681000, 5608642598325815787741286572113826000, 2961867439565318449706072684149998000, 1513843358000051652071992705232221200, 748603858351673893881754634455494000, 358027932255148384030404390391758000, 165539796634100865734488051471458000, 73964589985449322987749980444694000, 31921559888457076236818412612973200, 13300649953523781765341005255405500, 5347684001932242153075249535678500, 2073591755851277569559790636283500, 774978737035325960340527813560500, 278992345332717345722590012881780, 96680515709357496042481687632300, 32226838569785832014160562544100, 10325103619445946179294160815100, 3176954959829521901321280250800, 937958130997287418485330359760, 265459848395458703344904818800, 71947061714657031747684483600, 18652941926022193416066347600, 4620453504611002038842122800, 1092107191998964118271774480, 245970088288054981592742000, 52707876061726067484159000, 10728151764776102231289000, 2070345077412932009547000, 378063014136274540873800, 65183278299357679461000, 10585318698186289827000, 1614709631926722177000, 230672804560960311000, 30756373941461374800, 3812773629106782000, 437531400061434000, 46243156104054000, 4475144139102000, 393812684240976, 31254974939760, 2214919483920, 138432467745, 7511839335, 346700277, 13232835, 400995, 9045, 135, 1]

/-- Row 136 of Pascal's triangle (A007318.cpp). -/
def row136 : List Nat := [1, 136, 9180, 410040, 13633830, 359933112, 7858539612, 145944307080, 2353351951665, 33469894423680, 425067659180736, 4868956823342976, 50718300243156000, 483774556165488000, 4250305029168216000, 34569147570568156800, 261429178502421685800, 1845382436487682488000, 12200028330113012004000, 75768596997543969288000, 443246292435632220334800, 2448408091549206550420800, 12798496842189034240836000, 63436027826502169715448000, 298677964349781049076901000, 1338077280287019099864516480, 5712560696609966157113897280, 23273395430633195454908470400, 90600003640679225163750831200, 337406910110115735092589302400, 1203417979392746121830235178560, 4114913090826809319806610610560, 13502058579275468080615441065900, 42551942189231778193454723359200, 128907354279143328056642250176400, 375672861042074841765071700514080, 1053971082368043306063117826442280, 2848570492886603529900318449844000, 7421275757783519722635040171962000, 18648333955456023918416254791084000, 45222209841980858002159417868378700, 105886149873906399224568393057667200, 239504386619550188722238031916152000, 523567728889249249764892441863216000, 1106631790606822277912159024847252000, 2262447216351725545953747339687715200, 4475710797565370101778065389382219200, 8570510037891134237447359256263824000, 15891154028589811398600311954322507000, 28539215398283742919935254122048584000, 49658234793013712680687342172364536160, 83737415533317240990962969153399021760, 136878467698691643927535622654594554800, 216939458239435813017226269867659294400, 333443982108762453341292229611402248800, 497134664234882203163381142329726989120, 719069782196883186718462009441212252120, 1009220746942993946271525627285911932800, 1374628258767181409576733181992880046400, 1817305155658307626220087935516010908800, 2332208283094828120315779517245547332960, 2905702123200113723672118742797731103360, 3514962245806589181861433963061771496000, 4128685812534723800916604972485255408000, 4709282254922419335420502546740994449750, 5216435728529449110004248974851563082800, 5611620253418043739550025412340317861800, 5862886831929299429380623565131675378000, 5949105755928259715106809205795376486500, 5862886831929299429380623565131675378000, 5611620253418043739550025412340317861800, 5216435728529449110004248974851563082800, 4709282254922419335420502546740994449750, 4128685812534723800916604972485255408000, 3514962245806589181861433963061771496000, 2905702123200113723672118742797731103360, 2332208283094828120315779517245547332960, 1817305155658307626220087935516010908800, 1374628258767181409576733181992880046400, 1009220746942993946271525627285911932800, 719069782196883186718462009441212252120, 497134664234882203163381142329726989120, 333443982108762453341292229611402248800, 216939458239435813017226269867659294400, 136878467698691643927535622654594554800, 83737415533317240990962969153399021760, 49658234793013712680687342172364536160, 28539215398283742919935254122048584000, 15891154028589811398600311954322507000, 8570510037891134237447359256263824000, 4475710797565370101778065389382219200, 2262447216351725545953747339687715200, 1106631790606822277912159024847252000, 523567728889249249764892441863216000, 239504386619550188722238031916152000, 105886149873906399224568393057667200, 45222209841980858002159417868378700, 18648333955456023918416254791084000, 7421275757783519722635040171962000, 2848570492886603529900318449844000, 1053971082368043306063117826442280, 375672861042074841765071700514080, 128907354279143328056642250176400, 42551942189231778193454723359200, 13502058579275468080615441065900, 4114913090826809319806610610560, 1203417979392746121830235178560, 337406910110115735092589302400, 90600003640679225163750831200, 23273395430633195454908470400, 5712560696609966157113897280, 1338077280287019099864516480, 298677964349781049076901000, 63436027826502169715448000, 12798496842189034240836000, 2448408091549206550420800, 443246292435632220334800, 75768596997543969288000, 12200028330113012004000, 1845382436487682488000, 261429178502421685800, 34569147570568156800, 4250305029168216000, 483774556165488000, 50718300243156000, 4868956823342976, 425067659180736, 33469894423680, 2353351951665, 145944307080, 7858539612, 359933112, 13633830, 410040, 9180, 136, 1]

/-- Row 137 of Pascal's triangle (A007318.cpp). -/
def row137 : List Nat := [1, 137, 9316, 419220, 14043870, 373566942, 8218472724, 153802846692, 2499296258745, 35823246375345, 458537553604416, 5294024482523712, 55587257066498976, 534492856408644000, 4734079585333704000, 38819452599736372800, 295998326072989842600, 2106811614990104173800, 14045410766600694492000, 87968625327656981292000, 519014889433176189622800, 2891654383984838770755600, 15246904933738240791256800, 76234524668691203956284000, 362113992176283218792349000, 1636755244636800148941417480, 7050637976896985256978413760, 28985956127243161612022367680, 113873399071312420618659301600, 428006913750794960256340133600, 1540824889502861856922824480960, 5318331070219555441636845789120, 17616971670102277400422051676460, 56054000768507246274070164425100, 171459296468375106250096973535600, 504580215321218169821713950690480, 1429643943410118147828189526956360, 3902541575254646835963436276286280, 10269846250670123252535358621806000, 26069609713239543641051294963046000, 63870543797436881920575672659462700, 151108359715887257226727810926045900, 345390536493456587946806424973819200, 763072115508799438487130473779368000, 1630199519496071527677051466710468000, 3369079006958547823865906364534967200, 6738158013917095647731812729069934400, 13046220835456504339225424645646043200, 24461664066480945636047671210586331000, 44430369426873554318535566076371091000, 78197450191297455600622596294413120160, 133395650326330953671650311325763557920, 220615883232008884918498591807993576560, 353817925938127456944761892522253849200, 550383440348198266358518499479061543200, 830578646343644656504673371941129237920, 1216204446431765389881843151770939241240, 1728290529139877132989987636727124184920, 2383849005710175355848258809278791979200, 3191933414425489035796821117508890955200, 4149513438753135746535867452761558241760, 5237910406294941843987898260043278436320, 6420664369006702905533552705859502599360, 7643648058341312982778038935547026904000, 8837968067457143136337107519226249857750, 9925717983451868445424751521592557532550, 10828055981947492849554274387191880944600, 11474507085347343168930648977471993239800, 11811992587857559144487432770927051864500, 11811992587857559144487432770927051864500, 11474507085347343168930648977471993239800, 10828055981947492849554274387191880944600, 9925717983451868445424751521592557532550, 8837968067457143136337107519226249857750, 7643648058341312982778038935547026904000, 6420664369006702905533552705859502599360, 5237910406294941843987898260043278436320, 4149513438753135746535867452761558241760, 3191933414425489035796821117508890955200, 2383849005710175355848258809278791979200, 1728290529139877132989987636727124184920, 1216204446431765389881843151770939241240, 830578646343644656504673371941129237920, 550383440348198266358518499479061543200, 353817925938127456944761892522253849200, 220615883232008884918498591807993576560, 133395650326330953671650311325763557920, 78197450191297455600622596294413120160, 44430369426873554318535566076371091000, 24461664066480945636047671210586331000, 13046220835456504339225424645646043200, 6738158013917095647731812729069934400, 3369079006958547823865906364534967200, 1630199519496071527677051466710468000, 763072115508799438487130473779368000, 345390536493456587946806424973819200, 151108359715887257226727810926045900, 63870543797436881920575672659462700, 26069609713239543641051294963046000, 10269846250670123252535358621806000, 3902541575254646835963436276286280, 1429643943410118147828189526956360, 504580215321218169821713950690480, 171459296468375106250096973535600, 56054000768507246274070164425100, 17616971670102277400422051676460, 5318331070219555441636845789120, 1540824889502861856922824480960, 428006913750794960256340133600, 113873399071312420618659301600, 28985956127243161612022367680, 7050637976896985256978413760, 1636755244636800148941417480, 362113992176283218792349000, 76234524668691203956284000, 15246904933738240791256800, 2891654383984838770755600, 519014889433176189622800, 87968625327656981292000, 14045410766600694492000, 2106811614990104173800, 295998326072989842600, 38819452599736372800, 4734079585333704000, 534492856408644000, 55587257066498976, 5294024482523712, 458537553604416, 35823246375345, 2499296258745, 153802846692, 8218472724, 373566942, 14043870, 419220, 9316, 137, 1]

/-- Row 138 of Pascal's triangle (A007318.cpp). -/
def row138 : List Nat := [1, 138, 9453, 428536, 14463090, 387610812, 8592039666, 162021319416, 2653099105437, 38322542634090, 494360799979761, 5752562036128128, 60881281549022688, 590080113475142976, 5268572441742348000, 43553532185070076800, 334817778672726215400, 2402809941063094016400, 16152222381590798665800, 102014036094257675784000, 606983514760833170914800, 3410669273418014960378400, 18138559317723079562012400, 91481429602429444747540800, 438348516844974422748633000, 1998869236813083367733766480, 8687393221533785405919831240, 36036594104140146869000781440, 142859355198555582230681669280, 541880312822107380874999435200, 1968831803253656817179164614560, 6859155959722417298559670270080, 22935302740321832842058897465580, 73670972438609523674492216101560, 227513297236882352524167137960700, 676039511789593276071810924226080, 1934224158731336317649903477646840, 5332185518664764983791625803242640, 14172387825924770088498794898092280, 36339455963909666893586653584852000, 89940153510676425561626967622508700, 214978903513324139147303483585508600, 496498896209343845173534235899865100, 1108462652002256026433936898753187200, 2393271635004870966164181940489836000, 4999278526454619351542957831245435200, 10107237020875643471597719093604901600, 19784378849373599986957237374715977600, 37507884901937449975273095856232374200, 68892033493354499954583237286957422000, 122627819618171009919158162370784211160, 211593100517628409272272907620176678080, 354011533558339838590148903133757134480, 574433809170136341863260484330247425760, 904201366286325723303280392001315392400, 1380962086691842922863191871420190781120, 2046783092775410046386516523712068479160, 2944494975571642522871830788498063426160, 4112139534850052488838246446005916164120, 5575782420135664391645079926787682934400, 7341446853178624782332688570270449196960, 9387423845048077590523765712804836678080, 11658574775301644749521450965902781035680, 14064312427348015888311591641406529503360, 16481616125798456119115146454773276761750, 18763686050909011581761859040818807390300, 20753773965399361294979025908784438477150, 22302563067294836018484923364663874184400, 23286499673204902313418081748399045104300, 23623985175715118288974865541854103729000, 23286499673204902313418081748399045104300, 22302563067294836018484923364663874184400, 20753773965399361294979025908784438477150, 18763686050909011581761859040818807390300, 16481616125798456119115146454773276761750, 14064312427348015888311591641406529503360, 11658574775301644749521450965902781035680, 9387423845048077590523765712804836678080, 7341446853178624782332688570270449196960, 5575782420135664391645079926787682934400, 4112139534850052488838246446005916164120, 2944494975571642522871830788498063426160, 2046783092775410046386516523712068479160, 1380962086691842922863191871420190781120, 904201366286325723303280392001315392400, 574433809170136341863260484330247425760, 354011533558339838590148903133757134480, 211593100517628409272272907620176678080, 122627819618171009919158162370784211160, 68892033493354499954583237286957422000, 37507884901937449975273095856232374200, 19784378849373599986957237374715977600, 10107237020875643471597719093604901600, 4999278526454619351542957831245435200, 2393271635004870966164181940489836000, 1108462652002256026433936898753187200, 496498896209343845173534235899865100, 214978903513324139147303483585508600, 89940153510676425561626967622508700, 36339455963909666893586653584852000, 14172387825924770088498794898092280, 5332185518664764983791625803242640, 1934224158731336317649903477646840, 676039511789593276071810924226080, 227513297236882352524167137960700, 73670972438609523674492216101560, 22935302740321832842058897465580, 6859155959722417298559670270080, 1968831803253656817179164614560, 541880312822107380874999435200, 142859355198555582230681669280, 36036594104140146869000781440, 8687393221533785405919831240, 1998869236813083367733766480, 438348516844974422748633000, 91481429602429444747540800, 18138559317723079562012400, 3410669273418014960378400, 606983514760833170914800, 102014036094257675784000, 16152222381590798665800, 2402809941063094016400, 334817778672726215400, 43553532185070076800, 5268572441742348000, 590080113475142976, 60881281549022688, 5752562036128128, 494360799979761, 38322542634090, 2653099105437, 162021319416, 8592039666, 387610812, 14463090, 428536, 9453, 138, 1]

/-- Row 139 of Pascal's triangle (A007318.cpp). -/
def row139 : List Nat := [1, 139, 9591, 437989, 14891626, 402073902, 8979650478, 170613359082, 2815120424853, 40975641739527, 532683342613851, 6246922836107889, 66633843585150816, 650961395024165664, 5858652555217490976, 48822104626812424800, 378371310857796292200, 2737627719735820231800, 18555032322653892682200, 118166258475848474449800, 708997550855090846698800, 4017652788178848131293200, 21549228591141094522390800, 109619988920152524309553200, 529829946447403867496173800, 2437217753658057790482399480, 10686262458346868773653597720, 44723987325673932274920612680, 178895949302695729099682450720, 684739668020662963105681104480, 2510712116075764198054164049760, 8827987762976074115738834884640, 29794458700044250140618567735660, 96606275178931356516551113567140, 301184269675491876198659354062260, 903552809026475628595978062186780, 2610263670520929593721714401872920, 7266409677396101301441529280889480, 19504573344589535072290420701334920, 50511843789834436982085448482944280, 126279609474586092455213621207360700, 304919057024000564708930451208017300, 711477799722667984320837719485373700, 1604961548211599871607471134653052300, 3501734287007126992598118839243023200, 7392550161459490317707139771735271200, 15106515547330262823140676924850336800, 29891615870249243458554956468320879200, 57292263751311049962230333230948351800, 106399918395291949929856333143189796200, 191519853111525509873741399657741633160, 334220920135799419191431069990960889240, 565604634075968247862421810753933812560, 928445342728476180453409387464004560240, 1478635175456462065166540876331562818160, 2285163452978168646166472263421506173520, 3427745179467252969249708395132259260280, 4991278068347052569258347312210131905320, 7056634510421695011710077234503979590280, 9687921954985716880483326372793599098520, 12917229273314289173977768497058132131360, 16728870698226702372856454283075285875040, 21045998620349722340045216678707617713760, 25722887202649660637833042607309310539040, 30545928553146472007426738096179806265110, 35245302176707467700877005495592084152050, 39517460016308372876740884949603245867450, 43056337032694197313463949273448312661550, 45589062740499738331903005113062919288700, 46910484848920020602392947290253148833300, 46910484848920020602392947290253148833300, 45589062740499738331903005113062919288700, 43056337032694197313463949273448312661550, 39517460016308372876740884949603245867450, 35245302176707467700877005495592084152050, 30545928553146472007426738096179806265110, 25722887202649660637833042607309310539040, 21045998620349722340045216678707617713760, 16728870698226702372856454283075285875040, 12917229273314289173977768497058132131360, 9687921954985716880483326372793599098520, 7056634510421695011710077234503979590280, 4991278068347052569258347312210131905320, 3427745179467252969249708395132259260280, 2285163452978168646166472263421506173520, 1478635175456462065166540876331562818160, 928445342728476180453409387464004560240, 565604634075968247862421810753933812560, 334220920135799419191431069990960889240, 191519853111525509873741399657741633160, 106399918395291949929856333143189796200, 57292263751311049962230333230948351800, 29891615870249243458554956468320879200, 15106515547330262823140676924850336800, 7392550161459490317707139771735271200, 3501734287007126992598118839243023200, 1604961548211599871607471134653052300, 711477799722667984320837719485373700, 304919057024000564708930451208017300, 126279609474586092455213621207360700, 50511843789834436982085448482944280, 19504573344589535072290420701334920, 7266409677396101301441529280889480, 2610263670520929593721714401872920, 903552809026475628595978062186780, 301184269675491876198659354062260, 96606275178931356516551113567140, 29794458700044250140618567735660, 8827987762976074115738834884640, 2510712116075764198054164049760, 684739668020662963105681104480, 178895949302695729099682450720, 44723987325673932274920612680, 10686262458346868773653597720, 2437217753658057790482399480, 529829946447403867496173800, 109619988920152524309553200, 21549228591141094522390800, 4017652788178848131293200, 708997550855090846698800, 118166258475848474449800, 18555032322653892682200, 2737627719735820231800, 378371310857796292200, 48822104626812424800, 5858652555217490976, 650961395024165664, 66633843585150816, 6246922836107889, 532683342613851, 40975641739527, 2815120424853, 170613359082, 8979650478, 402073902, 14891626, 437989, 9591, 139, 1]

/-- Row 140 of Pascal's triangle (A007318.cpp). -/
def row140 : List Nat := [1, 140, 9730, 447580, 15329615, 416965528, 9381724380, 179593009560, 2985733783935, 43790762164380, 573658984353378, 6779606178721740, 72880766421258705, 717595238609316480, 6509613950241656640, 54680757182029915776, 427193415484608717000, 3115999030593616524000, 21292660042389712914000, 136721290798502367132000, 827163809330939321148600, 4726650339033938977992000, 25566881379319942653684000, 131169217511293618831944000, 639449935367556391805727000, 2967047700105461657978573280, 13123480212004926564135997200, 55410249784020801048574210400, 223619936628369661374603063400, 863635617323358692205363555200, 3195451784096427161159845154240, 11338699879051838313792998934400, 38622446463020324256357402620300, 126400733878975606657169681302800, 397790544854423232715210467629400, 1204737078701967504794637416249040, 3513816479547405222317692464059700, 9876673347917030895163243682762400, 26770983021985636373731949982224400, 70016417134423972054375869184279200, 176791453264420529437299069690304980, 431198666498586657164144072415378000, 1016396856746668549029768170693391000, 2316439347934267855928308854138426000, 5106695835218726864205589973896075500, 10894284448466617310305258610978294400, 22499065708789753140847816696585608000, 44998131417579506281695633393171216000, 87183879621560293420785289699269231000, 163692182146602999892086666374138148000, 297919771506817459803597732800931429360, 525740773247324929065172469648702522400, 899825554211767667053852880744894701800, 1494049976804444428315831198217938372800, 2407080518184938245619950263795567378400, 3763798628434630711333013139753068991680, 5712908632445421615416180658553765433800, 8419023247814305538508055707342391165600, 12047912578768747580968424546714111495600, 16744556465407411892193403607297578688800, 22605151228300006054461094869851731229880, 29646099971540991546834222780133418006400, 37774869318576424712901670961782903588800, 46768885822999382977878259286016928252800, 56268815755796132645259780703489116804150, 65791230729853939708303743591771890417160, 74762762193015840577617890445195330019500, 82573797049002570190204834223051558529000, 88645399773193935645366954386511231950250, 92499547589419758934295952403316068122000, 93820969697840041204785894580506297666600, 92499547589419758934295952403316068122000, 88645399773193935645366954386511231950250, 82573797049002570190204834223051558529000, 74762762193015840577617890445195330019500, 65791230729853939708303743591771890417160, 56268815755796132645259780703489116804150, 46768885822999382977878259286016928252800, 37774869318576424712901670961782903588800, 29646099971540991546834222780133418006400, 22605151228300006054461094869851731229880, 16744556465407411892193403607297578688800, 12047912578768747580968424546714111495600, 8419023247814305538508055707342391165600, 5712908632445421615416180658553765433800, 3763798628434630711333013139753068991680, 2407080518184938245619950263795567378400, 1494049976804444428315831198217938372800, 899825554211767667053852880744894701800, 525740773247324929065172469648702522400, 297919771506817459803597732800931429360, 163692182146602999892086666374138148000, 87183879621560293420785289699269231000, 44998131417579506281695633393171216000, 22499065708789753140847816696585608000, 10894284448466617310305258610978294400, 5106695835218726864205589973896075500, 2316439347934267855928308854138426000, 1016396856746668549029768170693391000, 431198666498586657164144072415378000, 176791453264420529437299069690304980, 70016417134423972054375869184279200, 26770983021985636373731949982224400, 9876673347917030895163243682762400, 3513816479547405222317692464059700, 1204737078701967504794637416249040, 397790544854423232715210467629400, 126400733878975606657169681302800, 38622446463020324256357402620300, 11338699879051838313792998934400, 3195451784096427161159845154240, 863635617323358692205363555200, 223619936628369661374603063400, 55410249784020801048574210400, 13123480212004926564135997200, 2967047700105461657978573280, 639449935367556391805727000, 131169217511293618831944000, 25566881379319942653684000, 4726650339033938977992000, 827163809330939321148600, 136721290798502367132000, 21292660042389712914000, 3115999030593616524000, 427193415484608717000, 54680757182029915776, 6509613950241656640, 717595238609316480, 72880766421258705, 6779606178721740, 573658984353378, 43790762164380, 2985733783935, 179593009560, 9381724380, 416965528, 15329615, 447580, 9730, 140, 1]

/-- Row 141 of Pascal's triangle (A007318.cpp). -/
def row141 : List Nat := [1, 141, 9870, 457310, 15777195, 432295143, 9798689908, 188974733940, 3165326793495, 46776495948315, 617449746517758, 7353265163075118, 79660372599980445, 790476005030575185, 7227209188850973120, 61190371132271572416, 481874172666638632776, 3543192446078225241000, 24408659072983329438000, 158013950840892080046000, 963885100129441688280600, 5553814148364878299140600, 30293531718353881631676000, 156736098890613561485628000, 770619152878850010637671000, 3606497635473018049784300280, 16090527912110388222114570480, 68533729996025727612710207600, 279030186412390462423177273800, 1087255553951728353579966618600, 4059087401419785853365208709440, 14534151663148265474952844088640, 49961146342072162570150401554700, 165023180341995930913527083923100, 524191278733398839372380148932200, 1602527623556390737509847883878440, 4718553558249372727112329880308740, 13390489827464436117480936146822100, 36647656369902667268895193664986800, 96787400156409608428107819166503600, 246807870398844501491674938874584180, 607990119763007186601443142105682980, 1447595523245255206193912243108769000, 3332836204680936404958077024831817000, 7423135183152994720133898828034501500, 16000980283685344174510848584874369900, 33393350157256370451153075307563902400, 67497197126369259422543450089756824000, 132182011039139799702480923092440447000, 250876061768163293312871956073407379000, 461611953653420459695684399175069577360, 823660544754142388868770202449633951760, 1425566327459092596119025350393597224200, 2393875531016212095369684078962833074600, 3901130494989382673935781462013505751200, 6170879146619568956952963403548636370080, 9476707260880052326749193798306834425480, 14131931880259727153924236365896156599400, 20466935826583053119476480254056502661200, 28792469044176159473161828154011690184400, 39349707693707417946654498477149309918680, 52251251199840997601295317649985149236280, 67420969290117416259735893741916321595200, 84543755141575807690779930247799831841600, 103037701578795515623138039989506045056950, 122060046485650072353563524295261007221310, 140553992922869780285921634036967220436660, 157336559242018410767822724668246888548500, 171219196822196505835571788609562790479250, 181144947362613694579662906789827300072250, 186320517287259800139081846983822365788600, 186320517287259800139081846983822365788600, 181144947362613694579662906789827300072250, 171219196822196505835571788609562790479250, 157336559242018410767822724668246888548500, 140553992922869780285921634036967220436660, 122060046485650072353563524295261007221310, 103037701578795515623138039989506045056950, 84543755141575807690779930247799831841600, 67420969290117416259735893741916321595200, 52251251199840997601295317649985149236280, 39349707693707417946654498477149309918680, 28792469044176159473161828154011690184400, 20466935826583053119476480254056502661200, 14131931880259727153924236365896156599400, 9476707260880052326749193798306834425480, 6170879146619568956952963403548636370080, 3901130494989382673935781462013505751200, 2393875531016212095369684078962833074600, 1425566327459092596119025350393597224200, 823660544754142388868770202449633951760, 461611953653420459695684399175069577360, 250876061768163293312871956073407379000, 132182011039139799702480923092440447000, 67497197126369259422543450089756824000, 33393350157256370451153075307563902400, 16000980283685344174510848584874369900, 7423135183152994720133898828034501500, 3332836204680936404958077024831817000, 1447595523245255206193912243108769000, 607990119763007186601443142105682980, 246807870398844501491674938874584180, 96787400156409608428107819166503600, 36647656369902667268895193664986800, 13390489827464436117480936146822100, 4718553558249372727112329880308740, 1602527623556390737509847883878440, 524191278733398839372380148932200, 165023180341995930913527083923100, 49961146342072162570150401554700, 14534151663148265474952844088640, 4059087401419785853365208709440, 1087255553951728353579966618600, 279030186412390462423177273800, 68533729996025727612710207600, 16090527912110388222114570480, 3606497635473018049784300280, 770619152878850010637671000, 156736098890613561485628000, 30293531718353881631676000, 5553814148364878299140600, 963885100129441688280600, 158013950840892080046000, 24408659072983329438000, 3543192446078225241000, 481874172666638632776, 61190371132271572416, 7227209188850973120, 790476005030575185, 79660372599980445, 7353265163075118, 617449746517758, 46776495948315, 3165326793495, 188974733940, 9798689908, 432295143, 15777195, 457310, 9870, 141, 1]

/-- Row 142 of Pascal's triangle (A007318.cpp). -/
def row142 : List Nat := [1, 142, 10011, 467180, 16234505, 448072338, 10230985051, 198773423848, 3354301527435, 49941822741810, 664226242466073, 7970714909592876, 87013637763055563, 870136377630555630, 8017685193881548305, 68417580321122545536, 543064543798910205192, 4025066618744863873776, 27951851519061554679000, 182422609913875409484000, 1121899050970333768326600, 6517699248494319987421200, 35847345866718759930816600, 187029630608967443117304000, 927355251769463572123299000, 4377116788351868060421971280, 19697025547583406271898870760, 84624257908136115834824778080, 347563916408416190035887481400, 1366285740364118816003143892400, 5146342955371514206945175328040, 18593239064568051328318052798080, 64495298005220428045103245643340, 214984326684068093483677485477800, 689214459075394770285907232855300, 2126718902289789576882228032810640, 6321081181805763464622177764187180, 18109043385713808844593266027130840, 50038146197367103386376129811808900, 133435056526312275697003012831490400, 343595270555254109919782758041087780, 854797990161851688093118080980267160, 2055585643008262392795355385214451980, 4780431727926191611151989267940586000, 10755971387833931125091975852866318500, 23424115466838338894644747412908871400, 49394330440941714625663923892438272300, 100890547283625629873696525397320726400, 199679208165509059125024373182197271000, 383058072807303093015352879165847826000, 712488015421583753008556355248476956360, 1285272498407562848564454601624703529120, 2249226872213234984987795552843231175960, 3819441858475304691488709429356430298800, 6295006026005594769305465540976338825800, 10072009641608951630888744865562142121280, 15647586407499621283702157201855470795560, 23608639141139779480673430164202991024880, 34598867706842780273400716619952659260600, 49259404870759212592638308408068192845600, 68142176737883577419816326631161000103080, 91600958893548415547949816127134459154960, 119672220489958413861031211391901470831480, 151964724431693223950515823989716153436800, 187581456720371323313917970237305876898550, 225097748064445587976701564284767052278260, 262614039408519852639485158332228227657970, 297890552164888191053744358705214108985160, 328555756064214916603394513277809679027750, 352364144184810200415234695399390090551500, 367465464649873494718744753773649665860850, 372641034574519600278163693967644731577200, 367465464649873494718744753773649665860850, 352364144184810200415234695399390090551500, 328555756064214916603394513277809679027750, 297890552164888191053744358705214108985160, 262614039408519852639485158332228227657970, 225097748064445587976701564284767052278260, 187581456720371323313917970237305876898550, 151964724431693223950515823989716153436800, 119672220489958413861031211391901470831480, 91600958893548415547949816127134459154960, 68142176737883577419816326631161000103080, 49259404870759212592638308408068192845600, 34598867706842780273400716619952659260600, 23608639141139779480673430164202991024880, 15647586407499621283702157201855470795560, 10072009641608951630888744865562142121280, 6295006026005594769305465540976338825800, 3819441858475304691488709429356430298800, 2249226872213234984987795552843231175960, 1285272498407562848564454601624703529120, 712488015421583753008556355248476956360, 383058072807303093015352879165847826000, 199679208165509059125024373182197271000, 100890547283625629873696525397320726400, 49394330440941714625663923892438272300, 23424115466838338894644747412908871400, 10755971387833931125091975852866318500, 4780431727926191611151989267940586000, 2055585643008262392795355385214451980, 854797990161851688093118080980267160, 343595270555254109919782758041087780, 133435056526312275697003012831490400, 50038146197367103386376129811808900, 18109043385713808844593266027130840, 6321081181805763464622177764187180, 2126718902289789576882228032810640, 689214459075394770285907232855300, 214984326684068093483677485477800, 64495298005220428045103245643340, 18593239064568051328318052798080, 5146342955371514206945175328040, 1366285740364118816003143892400, 347563916408416190035887481400, 84624257908136115834824778080, 19697025547583406271898870760, 4377116788351868060421971280, 927355251769463572123299000, 187029630608967443117304000, 35847345866718759930816600, 6517699248494319987421200, 1121899050970333768326600, 182422609913875409484000, 27951851519061554679000, 4025066618744863873776, 543064543798910205192, 68417580321122545536, 8017685193881548305, 870136377630555630, 87013637763055563, 7970714909592876, 664226242466073, 49941822741810, 3354301527435, 198773423848, 10230985051, 448072338, 16234505, 467180, 10011, 142, 1]

/-- Row 143 of Pascal's triangle (A007318.cpp). -/
def row143 : List Nat := [1, 143, 10153, 477191, 16701685, 464306843, 10679057389, 209004408899, 3553074951283, 53296124269245, 714168065207883, 8634941152058949, 94984352672648439, 957150015393611193, 8887821571512103935, 76435265515004093841, 611482124120032750728, 4568131162543774078968, 31976918137806418552776, 210374461432936964163000, 1304321660884209177810600, 7639598299464653755747800, 42365045115213079918237800, 222876976475686203048120600, 1114384882378431015240603000, 5304472040121331632545270280, 24074142335935274332320842040, 104321283455719522106723648840, 432188174316552305870712259480, 1713849656772535006039031373800, 6512628695735633022948319220440, 23739582019939565535263228126120, 83088537069788479373421298441420, 279479624689288521528780731121140, 904198785759462863769584718333100, 2815933361365184347168135265665940, 8447800084095553041504405796997820, 24430124567519572309215443791318020, 68147189583080912230969395838939740, 183473202723679379083379142643299300, 477030327081566385616785770872578180, 1198393260717105798012900839021354940, 2910383633170114080888473466194719140, 6836017370934454003947344653155037980, 15536403115760122736243965120806904500, 34180086854672270019736723265775189900, 72818445907780053520308671305347143700, 150284877724567344499360449289758998700, 300569755449134688998720898579517997400, 582737280972812152140377252348045097000, 1095546088228886846023909234414324782360, 1997760513829146601573010956873180485480, 3534499370620797833552250154467934705080, 6068668730688539676476504982199661474760, 10114447884480899460794174970332769124600, 16367015667614546400194210406538480947080, 25719596049108572914590902067417612916840, 39256225548639400764375587366058461820440, 58207506847982559754074146784155650285480, 83858272577601992866039025028020852106200, 117401581608642790012454635039229192948680, 159743135631431992967766142758295459258040, 211273179383506829408981027519035929986440, 271636944921651637811547035381617624268280, 339546181152064547264433794227022030335350, 412679204784816911290619534522072929176810, 487711787472965440616186722616995279936230, 560504591573408043693229517037442336643130, 626446308229103107657138871983023788012910, 680919900249025117018629208677199769579250, 719829608834683695133979449173039756412350, 740106499224393094996908447741294397438050, 740106499224393094996908447741294397438050, 719829608834683695133979449173039756412350, 680919900249025117018629208677199769579250, 626446308229103107657138871983023788012910, 560504591573408043693229517037442336643130, 487711787472965440616186722616995279936230, 412679204784816911290619534522072929176810, 339546181152064547264433794227022030335350, 271636944921651637811547035381617624268280, 211273179383506829408981027519035929986440, 159743135631431992967766142758295459258040, 117401581608642790012454635039229192948680, 83858272577601992866039025028020852106200, 58207506847982559754074146784155650285480, 39256225548639400764375587366058461820440, 25719596049108572914590902067417612916840, 16367015667614546400194210406538480947080, 10114447884480899460794174970332769124600, 6068668730688539676476504982199661474760, 3534499370620797833552250154467934705080, 1997760513829146601573010956873180485480, 1095546088228886846023909234414324782360, 582737280972812152140377252348045097000, 300569755449134688998720898579517997400, 150284877724567344499360449289758998700, 72818445907780053520308671305347143700, 34180086854672270019736723265775189900, 15536403115760122736243965120806904500, 6836017370934454003947344653155037980, 2910383633170114080888473466194719140, 1198393260717105798012900839021354940, 477030327081566385616785770872578180, 183473202723679379083379142643299300, 68147189583080912230969395838939740, 24430124567519572309215443791318020, 8447800084095553041504405796997820, 2815933361365184347168135265665940, 904198785759462863769584718333100, 279479624689288521528780731121140, 83088537069788479373421298441420, 23739582019939565535263228126120, 6512628695735633022948319220440, 1713849656772535006039031373800, 432188174316552305870712259480, 104321283455719522106723648840, 24074142335935274332320842040, 5304472040121331632545270280, 1114384882378431015240603000, 222876976475686203048120600, 42365045115213079918237800, 7639598299464653755747800, 1304321660884209177810600, 210374461432936964163000, 31976918137806418552776, 4568131162543774078968, 611482124120032750728, 76435265515004093841, 8887821571512103935, 957150015393611193, 94984352672648439, 8634941152058949, 714168065207883, 53296124269245, 3553074951283, 209004408899, 10679057389, 464306843, 16701685, 477191, 10153, 143, 1]

/-- Row 144 of Pascal's triangle (A007318.cpp). -/
def row144 : List Nat := [1, 144, 10296, 487344, 17178876, 481008528, 11143364232, 219683466288, 3762079360182, 56849199220528, 767464189477128, 9349109217266832, 103619293824707388, 1052134368066259632, 9844971586905715128, 85323087086516197776, 687917389635036844569, 5179613286663806829696, 36545049300350192631744, 242351379570743382715776, 1514696122317146141973600, 8943919960348862933558400, 50004643414677733673985600, 265242021590899282966358400, 1337261858854117218288723600, 6418856922499762647785873280, 29378614376056605964866112320, 128395425791654796439044490880, 536509457772271827977435908320, 2146037831089087311909743633280, 8226478352508168028987350594240, 30252210715675198558211547346560, 106828119089728044908684526567540, 362568161759077000902202029562560, 1183678410448751385298365449454240, 3720132147124647210937719983999040, 11263733445460737388672541062663760, 32877924651615125350719849588315840, 92577314150600484540184839630257760, 251620392306760291314348538482239040, 660503529805245764700164913515877480, 1675423587798672183629686609893933120, 4108776893887219878901374305216074080, 9746401004104568084835818119349757120, 22372420486694576740191309773961942480, 49716489970432392755980688386582094400, 106998532762452323540045394571122333600, 223103323632347398019669120595106142400, 450854633173702033498081347869276996100, 883307036421946841139098150927563094400, 1678283369201698998164286486762369879360, 3093306602058033447596920191287505267840, 5532259884449944435125261111341115190560, 9603168101309337510028755136667596179840, 16183116615169439137270679952532430599360, 26481463552095445860988385376871250071680, 42086611716723119314785112473956093863920, 64975821597747973678966489433476074737280, 97463732396621960518449734150214112105920, 142065779425584552620113171812176502391680, 201259854186244782878493660067250045054880, 277144717240074782980220777797524652206720, 371016315014938822376747170277331389244480, 482910124305158467220528062900653554254720, 611183126073716185075980829608639654603630, 752225385936881458555053328749094959512160, 900390992257782351906806257139068209113040, 1048216379046373484309416239654437616579360, 1186950899802511151350368389020466124656040, 1307366208478128224675768080660223557592160, 1400749509083708812152608657850239525991600, 1459936108059076790130887896914334153850400, 1480212998448786189993816895482588794876100, 1459936108059076790130887896914334153850400, 1400749509083708812152608657850239525991600, 1307366208478128224675768080660223557592160, 1186950899802511151350368389020466124656040, 1048216379046373484309416239654437616579360, 900390992257782351906806257139068209113040, 752225385936881458555053328749094959512160, 611183126073716185075980829608639654603630, 482910124305158467220528062900653554254720, 371016315014938822376747170277331389244480, 277144717240074782980220777797524652206720, 201259854186244782878493660067250045054880, 142065779425584552620113171812176502391680, 97463732396621960518449734150214112105920, 64975821597747973678966489433476074737280, 42086611716723119314785112473956093863920, 26481463552095445860988385376871250071680, 16183116615169439137270679952532430599360, 9603168101309337510028755136667596179840, 5532259884449944435125261111341115190560, 3093306602058033447596920191287505267840, 1678283369201698998164286486762369879360, 883307036421946841139098150927563094400, 450854633173702033498081347869276996100, 223103323632347398019669120595106142400, 106998532762452323540045394571122333600, 49716489970432392755980688386582094400, 22372420486694576740191309773961942480, 9746401004104568084835818119349757120, 4108776893887219878901374305216074080, 1675423587798672183629686609893933120, 660503529805245764700164913515877480, 251620392306760291314348538482239040, 92577314150600484540184839630257760, 32877924651615125350719849588315840, 11263733445460737388672541062663760, 3720132147124647210937719983999040, 1183678410448751385298365449454240, 362568161759077000902202029562560, 106828119089728044908684526567540, 30252210715675198558211547346560, 8226478352508168028987350594240, 2146037831089087311909743633280, 536509457772271827977435908320, 128395425791654796439044490880, 29378614376056605964866112320, 6418856922499762647785873280, 1337261858854117218288723600, 265242021590899282966358400, 50004643414677733673985600, 8943919960348862933558400, 1514696122317146141973600, 242351379570743382715776, 36545049300350192631744, 5179613286663806829696, 687917389635036844569, 85323087086516197776, 9844971586905715128, 1052134368066259632, 103619293824707388, 9349109217266832, 767464189477128, 56849199220528, 3762079360182, 219683466288, 11143364232, 481008528, 17178876, 487344, 10296, 144, 1]

/-- Row 145 of Pascal's triangle (A007318.cpp). -/
def row145 : List Nat := [1, 145, 10440, 497640, 17666220, 498187404, 11624372760, 230826830520, 3981762826470, 60611278580710, 824313388697656, 10116573406743960, 112968403041974220, 1155753661890967020, 10897105954971974760, 95168058673421912904, 773240476721553042345, 5867530676298843674265, 41724662587013999461440, 278896428871093575347520, 1757047501887889524689376, 10458616082666009075532000, 58948563375026596607544000, 315246665005577016640344000, 1602503880445016501255082000, 7756118781353879866074596880, 35797471298556368612651985600, 157774040167711402403910603200, 664904883563926624416480399200, 2682547288861359139887179541600, 10372516183597255340897094227520, 38478689068183366587198897940800, 137080329805403243466896073914100, 469396280848805045810886556130100, 1546246572207828386200567479016800, 4903810557573398596236085433453280, 14983865592585384599610261046662800, 44141658097075862739392390650979600, 125455238802215609890904689218573600, 344197706457360775854533378112496800, 912123922112006056014513451998116520, 2335927117603917948329851523409810600, 5784200481685892062531060915110007200, 13855177897991787963737192424565831200, 32118821490799144825027127893311699600, 72088910457126969496171998160544036880, 156715022732884716296026082957704428000, 330101856394799721559714515166228476000, 673957956806049431517750468464383138500, 1334161669595648874637179498796840090500, 2561590405623645839303384637689932973760, 4771589971259732445761206678049875147200, 8625566486507977882722181302628620458400, 15135427985759281945154016248008711370400, 25786284716478776647299435089200026779200, 42664580167264884998259065329403680671040, 68568075268818565175773497850827343935600, 107062433314471092993751601907432168601200, 162439553994369934197416223583690186843200, 239529511822206513138562905962390614497600, 343325633611829335498606831879426547446560, 478404571426319565858714437864774697261600, 648161032255013605356967948074856041451200, 853926439320097289597275233177984943499200, 1094093250378874652296508892509293208858350, 1363408512010597643631034158357734614115790, 1652616378194663810461859585888163168625200, 1948607371304155836216222496793505825692400, 2235167278848884635659784628674903741235400, 2494317108280639376026136469680689682248200, 2708115717561837036828376738510463083583760, 2860685617142785602283496554764573679842000, 2940149106507862980124704792396922948726500, 2940149106507862980124704792396922948726500, 2860685617142785602283496554764573679842000, 2708115717561837036828376738510463083583760, 2494317108280639376026136469680689682248200, 2235167278848884635659784628674903741235400, 1948607371304155836216222496793505825692400, 1652616378194663810461859585888163168625200, 1363408512010597643631034158357734614115790, 1094093250378874652296508892509293208858350, 853926439320097289597275233177984943499200, 648161032255013605356967948074856041451200, 478404571426319565858714437864774697261600, 343325633611829335498606831879426547446560, 239529511822206513138562905962390614497600, 162439553994369934197416223583690186843200, 107062433314471092993751601907432168601200, 68568075268818565175773497850827343935600, 42664580167264884998259065329403680671040, 25786284716478776647299435089200026779200, 15135427985759281945154016248008711370400, 8625566486507977882722181302628620458400, 4771589971259732445761206678049875147200, 2561590405623645839303384637689932973760, 1334161669595648874637179498796840090500, 673957956806049431517750468464383138500, 330101856394799721559714515166228476000, 156715022732884716296026082957704428000, 72088910457126969496171998160544036880, 32118821490799144825027127893311699600, 13855177897991787963737192424565831200, 5784200481685892062531060915110007200, 2335927117603917948329851523409810600, 912123922112006056014513451998116520, 344197706457360775854533378112496800, 125455238802215609890904689218573600, 44141658097075862739392390650979600, 14983865592585384599610261046662800, 4903810557573398596236085433453280, 1546246572207828386200567479016800, 469396280848805045810886556130100, 137080329805403243466896073914100, 38478689068183366587198897940800, 10372516183597255340897094227520, 2682547288861359139887179541600, 664904883563926624416480399200, 157774040167711402403910603200, 35797471298556368612651985600, 7756118781353879866074596880, 1602503880445016501255082000, 315246665005577016640344000, 58948563375026596607544000, 10458616082666009075532000, 1757047501887889524689376, 278896428871093575347520, 41724662587013999461440, 5867530676298843674265, 773240476721553042345, 95168058673421912904, 10897105954971974760, 1155753661890967020, 112968403041974220, 10116573406743960, 824313388697656, 60611278580710, 3981762826470, 230826830520, 11624372760, 498187404, 17666220, 497640, 10440, 145, 1]

/-- Row 146 of Pascal's triangle (A007318.cpp). -/
def row146 : List Nat := [1, 146, 10585, 508080, 18163860, 515853624, 12122560164, 242451203280, 4212589656990, 64593041407180, 884924667278366, 10940886795441616, 123084976448718180, 1268722064932941240, 12052859616862941780, 106065164628393887664, 868408535394974955249, 6640771153020396716610, 47592193263312843135705, 320621091458107574808960, 2035943930758983100036896, 12215663584553898600221376, 69407179457692605683076000, 374195228380603613247888000, 1917750545450593517895426000, 9358622661798896367329678880, 43553590079910248478726582480, 193571511466267771016562588800, 822678923731638026820391002400, 3347452172425285764303659940800, 13055063472458614480784273769120, 48851205251780621928095992168320, 175559018873586610054094971854900, 606476610654208289277782630044200, 2015642853056633432011454035146900, 6450057129781226982436652912470080, 19887676150158783195846346480116080, 59125523689661247339002651697642400, 169596896899291472630297079869553200, 469652945259576385745438067331070400, 1256321628569366831869046830110613320, 3248051039715924004344364975407927120, 8120127599289810010860912438519817800, 19639378379677680026268253339675838400, 45973999388790932788764320317877530800, 104207731947926114321199126053855736480, 228803933190011685792198081118248464880, 486816879127684437855740598123932904000, 1004059813200849153077464983630611614500, 2008119626401698306154929967261223229000, 3895752075219294713940564136486773064260, 7333180376883378285064591315739808120960, 13397156457767710328483387980678495605600, 23760994472267259827876197550637331828800, 40921712702238058592453451337208738149600, 68450864883743661645558500418603707450240, 111232655436083450174032563180231024606640, 175630508583289658169525099758259512536800, 269501987308841027191167825491122355444400, 401969065816576447335979129546080801340800, 582855145434035848637169737841817161944160, 821730205038148901357321269744201244708160, 1126565603681333171215682385939630738712800, 1502087471575110894954243181252840984950400, 1948019689698971941893784125687278152357550, 2457501762389472295927543050867027822974140, 3016024890205261454092893744245897782740990, 3601223749498819646678082082681668994317600, 4183774650153040471876007125468409566927800, 4729484387129524011685921098355593423483600, 5202432825842476412854513208191152765831960, 5568801334704622639111873293275036763425760, 5800834723650648582408201347161496628568500, 5880298213015725960249409584793845897453000, 5800834723650648582408201347161496628568500, 5568801334704622639111873293275036763425760, 5202432825842476412854513208191152765831960, 4729484387129524011685921098355593423483600, 4183774650153040471876007125468409566927800, 3601223749498819646678082082681668994317600, 3016024890205261454092893744245897782740990, 2457501762389472295927543050867027822974140, 1948019689698971941893784125687278152357550, 1502087471575110894954243181252840984950400, 1126565603681333171215682385939630738712800, 821730205038148901357321269744201244708160, 582855145434035848637169737841817161944160, 401969065816576447335979129546080801340800, 269501987308841027191167825491122355444400, 175630508583289658169525099758259512536800, 111232655436083450174032563180231024606640, 68450864883743661645558500418603707450240, 40921712702238058592453451337208738149600, 23760994472267259827876197550637331828800, 13397156457767710328483387980678495605600, 7333180376883378285064591315739808120960, 3895752075219294713940564136486773064260, 2008119626401698306154929967261223229000, 1004059813200849153077464983630611614500, 486816879127684437855740598123932904000, 228803933190011685792198081118248464880, 104207731947926114321199126053855736480, 45973999388790932788764320317877530800, 19639378379677680026268253339675838400, 8120127599289810010860912438519817800, 3248051039715924004344364975407927120, 1256321628569366831869046830110613320, 469652945259576385745438067331070400, 169596896899291472630297079869553200, 59125523689661247339002651697642400, 19887676150158783195846346480116080, 6450057129781226982436652912470080, 2015642853056633432011454035146900, 606476610654208289277782630044200, 175559018873586610054094971854900, 48851205251780621928095992168320, 13055063472458614480784273769120, 3347452172425285764303659940800, 822678923731638026820391002400, 193571511466267771016562588800, 43553590079910248478726582480, 9358622661798896367329678880, 1917750545450593517895426000, 374195228380603613247888000, 69407179457692605683076000, 12215663584553898600221376, 2035943930758983100036896, 320621091458107574808960, 47592193263312843135705, 6640771153020396716610, 868408535394974955249, 106065164628393887664, 12052859616862941780, 1268722064932941240, 123084976448718180, 10940886795441616, 884924667278366, 64593041407180, 4212589656990, 242451203280, 12122560164, 515853624, 18163860, 508080, 10585, 146, 1]

/-- Row 147 of Pascal's triangle (A007318.cpp). -/
def row147 : List Nat := [1, 147, 10731, 518665, 18671940, 534017484, 12638413788, 254573763444, 4455040860270, 68805631064170, 949517708685546, 11825811462719982, 134025863244159796, 1391807041381659420, 13321581681795883020, 118118024245256829444, 974473700023368842913, 7509179688415371671859, 54232964416333239852315, 368213284721420417944665, 2356565022217090674845856, 14251607515312881700258272, 81622843042246504283297376, 443602407838296218930964000, 2291945773831197131143314000, 11276373207249489885225104880, 52912212741709144846056261360, 237125101546178019495289171280, 1016250435197905797836953591200, 4170131096156923791124050943200, 16402515644883900245087933709920, 61906268724239236408880265937440, 224410224125367231982190964023220, 782035629527794899331877601899100, 2622119463710841721289236665191100, 8465699982837860414448106947616980, 26337733279940010178282999392586160, 79013199839820030534848998177758480, 228722420588952719969299731567195600, 639249842158867858375735147200623600, 1725974573828943217614484897441683720, 4504372668285290836213411805518540440, 11368178639005734015205277413927744920, 27759505978967490037129165778195656200, 65613377768468612815032573657553369200, 150181731336717047109963446371733267280, 333011665137937800113397207172104201360, 715620812317696123647938679242181368880, 1490876692328533590933205581754544518500, 3012179439602547459232394950891834843500, 5903871701620993020095494103747996293260, 11228932452102672999005155452226581185220, 20730336834651088613547979296418303726560, 37158150930034970156359585531315827434400, 64682707174505318420329648887846069978400, 109372577585981720238011951755812445599840, 179683520319827111819591063598834732056880, 286863164019373108343557662938490537143440, 445132495892130685360692925249381867981200, 671471053125417474527146955037203156785200, 984824211250612295973148867387897963284960, 1404585350472184749994491007586018406652320, 1948295808719482072573003655683831983420960, 2628653075256444066169925567192471723663200, 3450107161274082836848027306940119137307950, 4405521452088444237821327176554305975331690, 5473526652594733750020436795112925605715130, 6617248639704081100770975826927566777058590, 7784998399651860118554089208150078561245400, 8913259037282564483561928223824002990411400, 9931917212972000424540434306546746189315560, 10771234160547099051966386501466189529257720, 11369636058355271221520074640436533391994260, 11681132936666374542657610931955342526021500, 11681132936666374542657610931955342526021500, 11369636058355271221520074640436533391994260, 10771234160547099051966386501466189529257720, 9931917212972000424540434306546746189315560, 8913259037282564483561928223824002990411400, 7784998399651860118554089208150078561245400, 6617248639704081100770975826927566777058590, 5473526652594733750020436795112925605715130, 4405521452088444237821327176554305975331690, 3450107161274082836848027306940119137307950, 2628653075256444066169925567192471723663200, 1948295808719482072573003655683831983420960, 1404585350472184749994491007586018406652320, 984824211250612295973148867387897963284960, 671471053125417474527146955037203156785200, 445132495892130685360692925249381867981200, 286863164019373108343557662938490537143440, 179683520319827111819591063598834732056880, 109372577585981720238011951755812445599840, 64682707174505318420329648887846069978400, 37158150930034970156359585531315827434400, 20730336834651088613547979296418303726560, 11228932452102672999005155452226581185220, 5903871701620993020095494103747996293260, 3012179439602547459232394950891834843500, 1490876692328533590933205581754544518500, 715620812317696123647938679242181368880, 333011665137937800113397207172104201360, 150181731336717047109963446371733267280, 65613377768468612815032573657553369200, 27759505978967490037129165778195656200, 11368178639005734015205277413927744920, 4504372668285290836213411805518540440, 1725974573828943217614484897441683720, 639249842158867858375735147200623600, 228722420588952719969299731567195600, 79013199839820030534848998177758480, 26337733279940010178282999392586160, 8465699982837860414448106947616980, 2622119463710841721289236665191100, 782035629527794899331877601899100, 224410224125367231982190964023220, 61906268724239236408880265937440, 16402515644883900245087933709920, 4170131096156923791124050943200, 1016250435197905797836953591200, 237125101546178019495289171280, 52912212741709144846056261360, 11276373207249489885225104880, 2291945773831197131143314000, 443602407838296218930964000, 81622843042246504283297376, 14251607515312881700258272, 2356565022217090674845856, 368213284721420417944665, 54232964416333239852315, 7509179688415371671859, 974473700023368842913, 118118024245256829444, 13321581681795883020, 1391807041381659420, 134025863244159796, 11825811462719982, 949517708685546, 68805631064170, 4455040860270, 254573763444, 12638413788, 534017484, 18671940, 518665, 10731, 147, 1]

/-- Row 148 of Pascal's triangle (A007318.cpp). -/
def row148 : List Nat := [1, 148, 10878, 529396, 19190605, 552689424, 13172431272, 267212177232, 4709614623714, 73260671924440, 1018323339749716, 12775329171405528, 145851674706879778, 1525832904625819216, 14713388723177542440, 131439605927052712464, 1092591724268625672357, 8483653388438740514772, 61742144104748611524174, 422446249137753657796980, 2724778306938511092790521, 16608172537529972375104128, 95874450557559385983555648, 525225250880542723214261376, 2735548181669493350074278000, 13568318981080687016368418880, 64188585948958634731281366240, 290037314287887164341345432640, 1253375536744083817332242762480, 5186381531354829588961004534400, 20572646741040824036211984653120, 78308784369123136653968199647360, 286316492849606468391071229960660, 1006445853653162131314068565922320, 3404155093238636620621114267090200, 11087819446548702135737343612808080, 34803433262777870592731106340203140, 105350933119760040713131997570344640, 307735620428772750504148729744954080, 867972262747820578345034878767819200, 2365224415987811075990220044642307320, 6230347242114234053827896702960224160, 15872551307291024851418689219446285360, 39127684617973224052334443192123401120, 93372883747436102852161739435749025400, 215795109105185659924996020029286636480, 483193396474654847223360653543837468640, 1048632477455633923761335886414285570240, 2206497504646229714581144260996725887380, 4503056131931081050165600532646379362000, 8916051141223540479327889054639831136760, 17132804153723666019100649555974577478480, 31959269286753761612553134748644884911780, 57888487764686058769907564827734131160960, 101840858104540288576689234419161897412800, 174055284760487038658341600643658515578240, 289056097905808832057603015354647177656720, 466546684339200220163148726537325269200320, 731995659911503793704250588187872405124640, 1116603549017548159887839880286585024766400, 1656295264376029770500295822425101120070160, 2389409561722797045967639874973916369937280, 3352881159191666822567494663269850390073280, 4576948883975926138742929222876303707084160, 6078760236530526903017952874132590860971150, 7855628613362527074669354483494425112639640, 9879048104683177987841763971667231581046820, 12090775292298814850791412622040492382773720, 14402247039355941219325065035077645338303990, 16698257436934424602116017431974081551656800, 18845176250254564908102362530370749179726960, 20703151373519099476506820808012935718573280, 22140870218902370273486461141902722921251980, 23050768995021645764177685572391875918015760, 23362265873332749085315221863910685052043000, 23050768995021645764177685572391875918015760, 22140870218902370273486461141902722921251980, 20703151373519099476506820808012935718573280, 18845176250254564908102362530370749179726960, 16698257436934424602116017431974081551656800, 14402247039355941219325065035077645338303990, 12090775292298814850791412622040492382773720, 9879048104683177987841763971667231581046820, 7855628613362527074669354483494425112639640, 6078760236530526903017952874132590860971150, 4576948883975926138742929222876303707084160, 3352881159191666822567494663269850390073280, 2389409561722797045967639874973916369937280, 1656295264376029770500295822425101120070160, 1116603549017548159887839880286585024766400, 731995659911503793704250588187872405124640, 466546684339200220163148726537325269200320, 289056097905808832057603015354647177656720, 174055284760487038658341600643658515578240, 101840858104540288576689234419161897412800, 57888487764686058769907564827734131160960, 31959269286753761612553134748644884911780, 17132804153723666019100649555974577478480, 8916051141223540479327889054639831136760, 4503056131931081050165600532646379362000, 2206497504646229714581144260996725887380, 1048632477455633923761335886414285570240, 483193396474654847223360653543837468640, 215795109105185659924996020029286636480, 93372883747436102852161739435749025400, 39127684617973224052334443192123401120, 15872551307291024851418689219446285360, 6230347242114234053827896702960224160, 2365224415987811075990220044642307320, 867972262747820578345034878767819200, 307735620428772750504148729744954080, 105350933119760040713131997570344640, 34803433262777870592731106340203140, 11087819446548702135737343612808080, 3404155093238636620621114267090200, 1006445853653162131314068565922320, 286316492849606468391071229960660, 78308784369123136653968199647360, 20572646741040824036211984653120, 5186381531354829588961004534400, 1253375536744083817332242762480, 290037314287887164341345432640, 64188585948958634731281366240, 13568318981080687016368418880, 2735548181669493350074278000, 525225250880542723214261376, 95874450557559385983555648, 16608172537529972375104128, 2724778306938511092790521, 422446249137753657796980, 61742144104748611524174, 8483653388438740514772, 1092591724268625672357, 131439605927052712464, 14713388723177542440, 1525832904625819216, 145851674706879778, 12775329171405528, 1018323339749716, 73260671924440, 4709614623714, 267212177232, 13172431272, 552689424, 19190605, 529396, 10878, 148, 1]

/-- Row 149 of Pascal's triangle (A007318.cpp). -/
def row149 : List Nat := [1, 149, 11026, 540274, 19720001, 571880029, 13725120696, 280384608504, 4976826800946, 77970286548154, 1091584011674156, 13793652511155244, 158627003878285306, 1671684579332698994, 16239221627803361656, 146152994650230254904, 1224031330195678384821, 9576245112707366187129, 70225797493187352038946, 484188393242502269321154, 3147224556076264750587501, 19332950844468483467894649, 112482623095089358358659776, 621099701438102109197817024, 3260773432550036073288539376, 16303867162750180366442696880, 77756904930039321747649785120, 354225900236845799072626798880, 1543412851031970981673588195120, 6439757068098913406293247296880, 25759028272395653625172989187520, 98881431110163960690180184300480, 364625277218729605045039429608020, 1292762346502768599705139795882980, 4410600946891798751935182833012520, 14491974539787338756358457879898280, 45891252709326572728468449953011220, 140154366382537911305863103910547780, 413086553548532791217280727315298720, 1175707883176593328849183608512773280, 3233196678735631654335254923410126520, 8595571658102045129818116747602531480, 22102898549405258905246585922406509520, 55000235925264248903753132411569686480, 132500568365409326904496182627872426520, 309167992852621762777157759465035661880, 698988505579840507148356673573124105120, 1531825873930288770984696539958123038880, 3255129982101863638342480147411011457620, 6709553636577310764746744793643105249380, 13419107273154621529493489587286210498760, 26048855294947206498428538610614408615240, 49092073440477427631653784304619462390260, 89847757051439820382460699576379016072740, 159729345869226347346596799246896028573760, 275896142865027327235030835062820412991040, 463111382666295870715944615998305693234960, 755602782245009052220751741891972446857040, 1198542344250704013867399314725197674324960, 1848599208929051953592090468474457429891040, 2772898813393577930388135702711686144836560, 4045704826098826816467935697399017490007440, 5742290720914463868535134538243766760010560, 7929830043167592961310423886146154097157440, 10655709120506453041760882097008894568055310, 13934388849893053977687307357627015973610790, 17734676718045705062511118455161656693686460, 21969823396981992838633176593707723963820540, 26493022331654756070116477657118137721077710, 31100504476290365821441082467051726889960790, 35543433687188989510218379962344830731383760, 39548327623773664384609183338383684898300240, 42844021592421469749993281949915658639825260, 45191639213924016037664146714294598839267740, 46413034868354394849492907436302560970058760, 46413034868354394849492907436302560970058760, 45191639213924016037664146714294598839267740, 42844021592421469749993281949915658639825260, 39548327623773664384609183338383684898300240, 35543433687188989510218379962344830731383760, 31100504476290365821441082467051726889960790, 26493022331654756070116477657118137721077710, 21969823396981992838633176593707723963820540, 17734676718045705062511118455161656693686460, 13934388849893053977687307357627015973610790, 10655709120506453041760882097008894568055310, 7929830043167592961310423886146154097157440, 5742290720914463868535134538243766760010560, 4045704826098826816467935697399017490007440, 2772898813393577930388135702711686144836560, 1848599208929051953592090468474457429891040, 1198542344250704013867399314725197674324960, 755602782245009052220751741891972446857040, 463111382666295870715944615998305693234960, 275896142865027327235030835062820412991040, 159729345869226347346596799246896028573760, 89847757051439820382460699576379016072740, 49092073440477427631653784304619462390260, 26048855294947206498428538610614408615240, 13419107273154621529493489587286210498760, 6709553636577310764746744793643105249380, 3255129982101863638342480147411011457620, 1531825873930288770984696539958123038880, 698988505579840507148356673573124105120, 309167992852621762777157759465035661880, 132500568365409326904496182627872426520, 55000235925264248903753132411569686480, 22102898549405258905246585922406509520, 8595571658102045129818116747602531480, 3233196678735631654335254923410126520, 1175707883176593328849183608512773280, 413086553548532791217280727315298720, 140154366382537911305863103910547780, 45891252709326572728468449953011220, 14491974539787338756358457879898280, 4410600946891798751935182833012520, 1292762346502768599705139795882980, 364625277218729605045039429608020, 98881431110163960690180184300480, 25759028272395653625172989187520, 6439757068098913406293247296880, 1543412851031970981673588195120, 354225900236845799072626798880, 77756904930039321747649785120, 16303867162750180366442696880, 3260773432550036073288539376, 621099701438102109197817024, 112482623095089358358659776, 19332950844468483467894649, 3147224556076264750587501, 484188393242502269321154, 70225797493187352038946, 9576245112707366187129, 1224031330195678384821, 146152994650230254904, 16239221627803361656, 1671684579332698994, 158627003878285306, 13793652511155244, 1091584011674156, 77970286548154, 4976826800946, 280384608504, 13725120696, 571880029, 19720001, 540274, 11026, 149, 1]

/-- Row 150 of Pascal's triangle (A007318.cpp). -/
def row150 : List Nat := [1, 150, 11175, 551300, 20260275, 591600030, 14297000725, 294109729200, 5257211409450, 82947113349100, 1169554298222310, 14885236522829400, 172420656389440550, 1830311583210984300, 17910906207136060650, 162392216278033616560, 1370184324845908639725, 10800276442903044571950, 79802042605894718226075, 554414190735689621360100, 3631412949318767019908655, 22480175400544748218482150, 131815573939557841826554425, 733582324533191467556476800, 3881873133988138182486356400, 19564640595300216439731236256, 94060772092789502114092482000, 431982805166885120820276584000, 1897638751268816780746214994000, 7983169919130884387966835492000, 32198785340494567031466236484400, 124640459382559614315353173488000, 463506708328893565735219613908500, 1657387623721498204750179225491000, 5703363293394567351640322628895500, 18902575486679137508293640712910800, 60383227249113911484826907832909500, 186045619091864484034331553863559000, 553240919931070702523143831225846500, 1588794436725126120066464335828072000, 4408904561912224983184438531922899800, 11828768336837676784153371671012658000, 30698470207507304035064702670009041000, 77103134474669507808999718333976196000, 187500804290673575808249315039442113000, 441668561218031089681653942092908088400, 1008156498432462269925514433038159767000, 2230814379510129278133053213531247144000, 4786955856032152409327176687369134496500, 9964683618679174403089224941054116707000, 20128660909731932294240234380929315748140, 39467962568101828027922028197900619114000, 75140928735424634130082322915233871005500, 138939830491917248014114483880998478463000, 249577102920666167729057498823275044646500, 435625488734253674581627634309716441564800, 739007525531323197950975451061126106226000, 1218714164911304922936696357890278140092000, 1954145126495713066088151056617170121182000, 3047141553179755967459489783199655104216000, 4621498022322629883980226171186143574727600, 6818603639492404746856071400110703634844000, 9787995547013290685003070235642784250018000, 13672120764082056829845558424389920857168000, 18585539163674046003071305983155048665212750, 24590097970399507019448189454635910541666100, 31669065567938759040198425812788672667297250, 39704500115027697901144295048869380657507000, 48462845728636748908749654250825861684898250, 57593526807945121891557560124169864611038500, 66643938163479355331659462429396557621344550, 75091761310962653894827563300728515629684000, 82392349216195134134602465288299343538125500, 88035660806345485787657428664210257479093000, 91604674082278410887157054150597159809326500, 92826069736708789698985814872605121940117520, 91604674082278410887157054150597159809326500, 88035660806345485787657428664210257479093000, 82392349216195134134602465288299343538125500, 75091761310962653894827563300728515629684000, 66643938163479355331659462429396557621344550, 57593526807945121891557560124169864611038500, 48462845728636748908749654250825861684898250, 39704500115027697901144295048869380657507000, 31669065567938759040198425812788672667297250, 24590097970399507019448189454635910541666100, 18585539163674046003071305983155048665212750, 13672120764082056829845558424389920857168000, 9787995547013290685003070235642784250018000, 6818603639492404746856071400110703634844000, 4621498022322629883980226171186143574727600, 3047141553179755967459489783199655104216000, 1954145126495713066088151056617170121182000, 1218714164911304922936696357890278140092000, 739007525531323197950975451061126106226000, 435625488734253674581627634309716441564800, 249577102920666167729057498823275044646500, 138939830491917248014114483880998478463000, 75140928735424634130082322915233871005500, 39467962568101828027922028197900619114000, 20128660909731932294240234380929315748140, 9964683618679174403089224941054116707000, 4786955856032152409327176687369134496500, 2230814379510129278133053213531247144000, 1008156498432462269925514433038159767000, 441668561218031089681653942092908088400, 187500804290673575808249315039442113000, 77103134474669507808999718333976196000, 30698470207507304035064702670009041000, 11828768336837676784153371671012658000, 4408904561912224983184438531922899800, 1588794436725126120066464335828072000, 553240919931070702523143831225846500, 186045619091864484034331553863559000, 60383227249113911484826907832909500, 18902575486679137508293640712910800, 5703363293394567351640322628895500, 1657387623721498204750179225491000, 463506708328893565735219613908500, 124640459382559614315353173488000, 32198785340494567031466236484400, 7983169919130884387966835492000, 1897638751268816780746214994000, 431982805166885120820276584000, 94060772092789502114092482000, 19564640595300216439731236256, 3881873133988138182486356400, 733582324533191467556476800, 131815573939557841826554425, 22480175400544748218482150, 3631412949318767019908655, 554414190735689621360100, 79802042605894718226075, 10800276442903044571950, 1370184324845908639725, 162392216278033616560, 17910906207136060650, 1830311583210984300, 172420656389440550, 14885236522829400, 1169554298222310, 82947113349100, 5257211409450, 294109729200, 14297000725, 591600030, 20260275, 551300, 11175, 150, 1]

/-- Row 151 of Pascal's triangle (A007318.cpp). -/
def row151 : List Nat := [1, 151, 11325, 562475, 20811575, 611860305, 14888600755, 308406729925, 5551321138650, 88204324758550, 1252501411571410, 16054790821051710, 187305892912269950, 2002732239600424850, 19741217790347044950, 180303122485169677210, 1532576541123942256285, 12170460767748953211675, 90602319048797762798025, 634216233341584339586175, 4185827140054456641268755, 26111588349863515238390805, 154295749340102590045036575, 865397898472749309383031225, 4615455458521329650042833200, 23446513729288354622217592656, 113625412688089718553823718256, 526043577259674622934369066000, 2329621556435701901566491578000, 9880808670399701168713050486000, 40181955259625451419433071976400, 156839244723054181346819409972400, 588147167711453180050572787396500, 2120894332050391770485398839399500, 7360750917116065556390501854386500, 24605938780073704859933963341806300, 79285802735793048993120548545820300, 246428846340978395519158461696468500, 739286539022935186557475385089405500, 2142035356656196822589608167053918500, 5997698998637351103250902867750971800, 16237672898749901767337810202935557800, 42527238544344980819218074341021699000, 107801604682176811844064421003985237000, 264603938765343083617249033373418309000, 629169365508704665489903257132350201400, 1449825059650493359607168375131067855400, 3238970877942591548058567646569406911000, 7017770235542281687460229900900381640500, 14751639474711326812416401628423251203500, 30093344528411106697329459321983432455140, 59596623477833760322162262578829934862140, 114608891303526462158004351113134490119500, 214080759227341882144196806796232349468500, 388516933412583415743171982704273523109500, 685202591654919842310685133132991486211300, 1174633014265576872532603085370842547790800, 1957721690442628120887671808951404246318000, 3172859291407017989024847414507448261274000, 5001286679675469033547640839816825225398000, 7668639575502385851439715954385798678943600, 11440101661815034630836297571296847209571600, 16606599186505695431859141635753487884862000, 23460116311095347514848628660032705107186000, 32257659927756102832916864407544969522380750, 43175637134073553022519495437790959206878850, 56259163538338266059646615267424583208963350, 71373565682966456941342720861658053324804250, 88167345843664446809893949299695242342405250, 106056372536581870800307214374995726295936750, 124237464971424477223217022553566422232383050, 141735699474442009226487025730125073251028550, 157484110527157788029430028589027859167809500, 170428010022540619922259893952509601017218500, 179640334888623896674814482814807417288419500, 184430743818987200586142869023202281749444020, 184430743818987200586142869023202281749444020, 179640334888623896674814482814807417288419500, 170428010022540619922259893952509601017218500, 157484110527157788029430028589027859167809500, 141735699474442009226487025730125073251028550, 124237464971424477223217022553566422232383050, 106056372536581870800307214374995726295936750, 88167345843664446809893949299695242342405250, 71373565682966456941342720861658053324804250, 56259163538338266059646615267424583208963350, 43175637134073553022519495437790959206878850, 32257659927756102832916864407544969522380750, 23460116311095347514848628660032705107186000, 16606599186505695431859141635753487884862000, 11440101661815034630836297571296847209571600, 7668639575502385851439715954385798678943600, 5001286679675469033547640839816825225398000, 3172859291407017989024847414507448261274000, 1957721690442628120887671808951404246318000, 1174633014265576872532603085370842547790800, 685202591654919842310685133132991486211300, 388516933412583415743171982704273523109500, 214080759227341882144196806796232349468500, 114608891303526462158004351113134490119500, 59596623477833760322162262578829934862140, 30093344528411106697329459321983432455140, 14751639474711326812416401628423251203500, 7017770235542281687460229900900381640500, 3238970877942591548058567646569406911000, 1449825059650493359607168375131067855400, 629169365508704665489903257132350201400, 264603938765343083617249033373418309000, 107801604682176811844064421003985237000, 42527238544344980819218074341021699000, 16237672898749901767337810202935557800, 5997698998637351103250902867750971800, 2142035356656196822589608167053918500, 739286539022935186557475385089405500, 246428846340978395519158461696468500, 79285802735793048993120548545820300, 24605938780073704859933963341806300, 7360750917116065556390501854386500, 2120894332050391770485398839399500, 588147167711453180050572787396500, 156839244723054181346819409972400, 40181955259625451419433071976400, 9880808670399701168713050486000, 2329621556435701901566491578000, 526043577259674622934369066000, 113625412688089718553823718256, 23446513729288354622217592656, 4615455458521329650042833200, 865397898472749309383031225, 154295749340102590045036575, 26111588349863515238390805, 4185827140054456641268755, 634216233341584339586175, 90602319048797762798025, 12170460767748953211675, 1532576541123942256285, 180303122485169677210, 19741217790347044950, 2002732239600424850, 187305892912269950, 16054790821051710, 1252501411571410, 88204324758550, 5551321138650, 308406729925, 14888600755, 611860305, 20811575, 562475, 11325, 151, 1]

/-- Row 152 of Pascal's triangle (A007318.cpp). -/
def row152 : List Nat := [1, 152, 11476, 573800, 21374050, 632671880, 15500461060, 323295330680, 5859727868575, 93755645897200, 1340705736329960, 17307292232623120, 203360683733321660, 2190038132512694800, 21743950029947469800, 200044340275516722160, 1712879663609111933495, 13703037308872895467960, 102772779816546716009700, 724818552390382102384200, 4820043373396040980854930, 30297415489917971879659560, 180407337689966105283427380, 1019693647812851899428067800, 5480853356994078959425864425, 28061969187809684272260425856, 137071926417378073176041310912, 639668989947764341488192784256, 2855665133695376524500860644000, 12210430226835403070279542064000, 50062763930025152588146122462400, 197021199982679632766252481948800, 744986412434507361397392197368900, 2709041499761844950535971626796000, 9481645249166457326875900693786000, 31966689697189770416324465196192800, 103891741515866753853054511887626600, 325714649076771444512279010242288800, 985715385363913582076633846785874000, 2881321895679132009147083552143324000, 8139734355293547925840511034804890300, 22235371897387252870588713070686529600, 58764911443094882586555884543957256800, 150328843226521792663282495345006936000, 372405543447519895461313454377403546000, 893773304274047749107152290505768510400, 2078994425159198025097071632263418056800, 4688795937593084907665736021700474766400, 10256741113484873235518797547469788551500, 21769409710253608499876631529323632844000, 44844984003122433509745860950406683658640, 89689968006244867019491721900813367317280, 174205514781360222480166613691964424981640, 328689650530868344302201157909366839588000, 602597692639925297887368789500505872578000, 1073719525067503258053857115837265009320800, 1859835605920496714843288218503834034002100, 3132354704708204993420274894322246794108800, 5130580981849646109912519223458852507592000, 8174145971082487022572488254324273486672000, 12669926255177854884987356794202623904341600, 19108741237317420482276013525682645888515200, 28046700848320730062695439207050335094433600, 40066715497601042946707770295786192992048000, 55717776238851450347765493067577674629566750, 75433297061829655855436359845335928729259600, 99434800672411819082166110705215542415842200, 127632729221304723000989336129082636533767600, 159540911526630903751236670161353295667209500, 194223718380246317610201163674690968638342000, 230293837508006348023524236928562148528319800, 265973164445866486449704048283691495483411600, 299219810001599797255917054319152932418838050, 327912120549698407951689922541537460185028000, 350068344911164516597074376767317018305638000, 364071078707611097260957351838009699037863520, 368861487637974401172285738046404563498888040, 364071078707611097260957351838009699037863520, 350068344911164516597074376767317018305638000, 327912120549698407951689922541537460185028000, 299219810001599797255917054319152932418838050, 265973164445866486449704048283691495483411600, 230293837508006348023524236928562148528319800, 194223718380246317610201163674690968638342000, 159540911526630903751236670161353295667209500, 127632729221304723000989336129082636533767600, 99434800672411819082166110705215542415842200, 75433297061829655855436359845335928729259600, 55717776238851450347765493067577674629566750, 40066715497601042946707770295786192992048000, 28046700848320730062695439207050335094433600, 19108741237317420482276013525682645888515200, 12669926255177854884987356794202623904341600, 8174145971082487022572488254324273486672000, 5130580981849646109912519223458852507592000, 3132354704708204993420274894322246794108800, 1859835605920496714843288218503834034002100, 1073719525067503258053857115837265009320800, 602597692639925297887368789500505872578000, 328689650530868344302201157909366839588000, 174205514781360222480166613691964424981640, 89689968006244867019491721900813367317280, 44844984003122433509745860950406683658640, 21769409710253608499876631529323632844000, 10256741113484873235518797547469788551500, 4688795937593084907665736021700474766400, 2078994425159198025097071632263418056800, 893773304274047749107152290505768510400, 372405543447519895461313454377403546000, 150328843226521792663282495345006936000, 58764911443094882586555884543957256800, 22235371897387252870588713070686529600, 8139734355293547925840511034804890300, 2881321895679132009147083552143324000, 985715385363913582076633846785874000, 325714649076771444512279010242288800, 103891741515866753853054511887626600, 31966689697189770416324465196192800, 9481645249166457326875900693786000, 2709041499761844950535971626796000, 744986412434507361397392197368900, 197021199982679632766252481948800, 50062763930025152588146122462400, 12210430226835403070279542064000, 2855665133695376524500860644000, 639668989947764341488192784256, 137071926417378073176041310912, 28061969187809684272260425856, 5480853356994078959425864425, 1019693647812851899428067800, 180407337689966105283427380, 30297415489917971879659560, 4820043373396040980854930, 724818552390382102384200, 102772779816546716009700, 13703037308872895467960, 1712879663609111933495, 200044340275516722160, 21743950029947469800, 2190038132512694800, 203360683733321660, 17307292232623120, 1340705736329960, 93755645897200, 5859727868575, 323295330680, 15500461060, 632671880, 21374050, 573800, 11476, 152, 1]

/-- Row 153 of Pascal's triangle (A007318.cpp). -/
def row153 : List Nat := [1, 153, 11628, 585276, 21947850, 654045930, 16133132940, 338795791740, 6183023199255, 99615373765775, 1434461382227160, 18647997968953080, 220667975965944780, 2393398816246016460, 23933988162460164600, 221788290305464191960, 1912924003884628655655, 15415916972482007401455, 116475817125419611477660, 827591332206928818393900, 5544861925786423083239130, 35117458863314012860514490, 210704753179884077163086940, 1200100985502818004711495180, 6500547004806930858853932225, 33542822544803763231686290281, 165133895605187757448301736768, 776740916365142414664234095168, 3495334123643140865989053428256, 15066095360530779594780402708000, 62273194156860555658425664526400, 247083963912704785354398604411200, 942007612417186994163644679317700, 3454027912196352311933363824164900, 12190686748928302277411872320582000, 41448334946356227743200365889978800, 135858431213056524269378977083819400, 429606390592638198365333522129915400, 1311430034440685026588912857028162800, 3867037281043045591223717398929198000, 11021056250972679934987594586948214300, 30375106252680800796429224105491419900, 81000283340482135457144597614643786400, 209093754669616675249838379888964192800, 522734386674041688124595949722410482000, 1266178847721567644568465744883172056400, 2972767729433245774204223922769186567200, 6767790362752282932762807653963892823200, 14945537051077958143184533569170263317900, 32026150823738481735395429076793421395500, 66614393713376042009622492479730316502640, 134534952009367300529237582851220050975920, 263895482787605089499658335592777792298920, 502895165312228566782367771601331264569640, 931287343170793642189569947409872712166000, 1676317217707428555941225905337770881898800, 2933555130987999972897145334341099043322900, 4992190310628701708263563112826080828110900, 8262935686557851103332794117781099301700800, 13304726952932133132485007477783125994264000, 20844072226260341907559845048526897391013600, 31778667492495275367263370319885269792856800, 47155442085638150544971452732732980982948800, 68113416345921773009403209502836528086481600, 95784491736452493294473263363363867621614750, 131151073300681106203201852912913603358826350, 174868097734241474937602470550551471145101800, 227067529893716542083155446834298178949609800, 287173640747935626752226006290435932200977100, 353764629906877221361437833836044264305551500, 424517555888252665633725400603253117166661800, 496267001953872834473228285212253644011731400, 565192974447466283705621102602844427902249650, 627131930551298205207606976860690392603866050, 677980465460862924548764299308854478490666000, 714139423618775613858031728605326717343501520, 732932566345585498433243089884414262536751560, 732932566345585498433243089884414262536751560, 714139423618775613858031728605326717343501520, 677980465460862924548764299308854478490666000, 627131930551298205207606976860690392603866050, 565192974447466283705621102602844427902249650, 496267001953872834473228285212253644011731400, 424517555888252665633725400603253117166661800, 353764629906877221361437833836044264305551500, 287173640747935626752226006290435932200977100, 227067529893716542083155446834298178949609800, 174868097734241474937602470550551471145101800, 131151073300681106203201852912913603358826350, 95784491736452493294473263363363867621614750, 68113416345921773009403209502836528086481600, 47155442085638150544971452732732980982948800, 31778667492495275367263370319885269792856800, 20844072226260341907559845048526897391013600, 13304726952932133132485007477783125994264000, 8262935686557851103332794117781099301700800, 4992190310628701708263563112826080828110900, 2933555130987999972897145334341099043322900, 1676317217707428555941225905337770881898800, 931287343170793642189569947409872712166000, 502895165312228566782367771601331264569640, 263895482787605089499658335592777792298920, 134534952009367300529237582851220050975920, 66614393713376042009622492479730316502640, 32026150823738481735395429076793421395500, 14945537051077958143184533569170263317900, 6767790362752282932762807653963892823200, 2972767729433245774204223922769186567200, 1266178847721567644568465744883172056400, 522734386674041688124595949722410482000, 209093754669616675249838379888964192800, 81000283340482135457144597614643786400, 30375106252680800796429224105491419900, 11021056250972679934987594586948214300, 3867037281043045591223717398929198000, 1311430034440685026588912857028162800, 429606390592638198365333522129915400, 135858431213056524269378977083819400, 41448334946356227743200365889978800, 12190686748928302277411872320582000, 3454027912196352311933363824164900, 942007612417186994163644679317700, 247083963912704785354398604411200, 62273194156860555658425664526400, 15066095360530779594780402708000, 3495334123643140865989053428256, 776740916365142414664234095168, 165133895605187757448301736768, 33542822544803763231686290281, 6500547004806930858853932225, 1200100985502818004711495180, 210704753179884077163086940, 35117458863314012860514490, 5544861925786423083239130, 827591332206928818393900, 116475817125419611477660, 15415916972482007401455, 1912924003884628655655, 221788290305464191960, 23933988162460164600, 2393398816246016460, 220667975965944780, 18647997968953080, 1434461382227160, 99615373765775, 6183023199255, 338795791740, 16133132940, 654045930, 21947850, 585276, 11628, 153, 1]

/-- Row 154 of Pascal's triangle (A007318.cpp). -/
def row154 : List Nat := [1, 154, 11781, 596904, 22533126, 675993780, 16787178870, 354928924680, 6521818990995, 105798396965030, 1534076755992935, 20082459351180240, 239315973934897860, 2614066792211961240, 26327386978706181060, 245722278467924356560, 2134712294190092847615, 17328840976366636057110, 131891734097901618879115, 944067149332348429871560, 6372453257993351901633030, 40662320789100435943753620, 245822212043198090023601430, 1410805738682702081874582120, 7700647990309748863565427405, 40043369549610694090540222506, 198676718149991520679988027049, 941874811970330172112535831936, 4272075040008283280653287523424, 18561429484173920460769456136256, 77339289517391335253206067234400, 309357158069565341012824268937600, 1189091576329891779518043283728900, 4396035524613539306097008503482600, 15644714661124654589345236144746900, 53639021695284530020612238210560800, 177306766159412752012579342973798200, 565464821805694722634712499213734800, 1741036425033323224954246379158078200, 5178467315483730617812630255957360800, 14888093532015725526211311985877412300, 41396162503653480731416818692439634200, 111375389593162936253573821720135206300, 290094038010098810706982977503607979200, 731828141343658363374434329611374674800, 1788913234395609332693061694605582538400, 4238946577154813418772689667652358623600, 9740558092185528706967031576733079390400, 21713327413830241075947341223134156141100, 46971687874816439878579962645963684713400, 98640544537114523745017921556523737898140, 201149345722743342538860075330950367478560, 398430434796972390028895918443997843274840, 766790648099833656282026107194109056868560, 1434182508483022208971937719011203976735640, 2607604560878222198130795852747643594064800, 4609872348695428528838371239678869925221700, 7925745441616701681160708447167179871433800, 13255125997186552811596357230607180129811700, 21567662639489984235817801595564225295964800, 34148799179192475040044852526310023385277600, 52622739718755617274823215368412167183870400, 78934109578133425912234823052618250775805600, 115268858431559923554374662235569509069430400, 163897908082374266303876472866200395708096350, 226935565037133599497675116276277470980441100, 306019171034922581140804323463465074503928150, 401935627627958017020757917384849650094711600, 514241170641652168835381453124734111150586900, 640938270654812848113663840126480196506528600, 778282185795129886995163234439297381472213300, 920784557842125500106953685815506761178393200, 1061459976401339118178849387815098071913981050, 1192324904998764488913228079463534820506115700, 1305112396012161129756371276169544871094532050, 1392119889079638538406796027914181195834167520, 1447071989964361112291274818489740979880253080, 1465865132691170996866486179768828525073503120, 1447071989964361112291274818489740979880253080, 1392119889079638538406796027914181195834167520, 1305112396012161129756371276169544871094532050, 1192324904998764488913228079463534820506115700, 1061459976401339118178849387815098071913981050, 920784557842125500106953685815506761178393200, 778282185795129886995163234439297381472213300, 640938270654812848113663840126480196506528600, 514241170641652168835381453124734111150586900, 401935627627958017020757917384849650094711600, 306019171034922581140804323463465074503928150, 226935565037133599497675116276277470980441100, 163897908082374266303876472866200395708096350, 115268858431559923554374662235569509069430400, 78934109578133425912234823052618250775805600, 52622739718755617274823215368412167183870400, 34148799179192475040044852526310023385277600, 21567662639489984235817801595564225295964800, 13255125997186552811596357230607180129811700, 7925745441616701681160708447167179871433800, 4609872348695428528838371239678869925221700, 2607604560878222198130795852747643594064800, 1434182508483022208971937719011203976735640, 766790648099833656282026107194109056868560, 398430434796972390028895918443997843274840, 201149345722743342538860075330950367478560, 98640544537114523745017921556523737898140, 46971687874816439878579962645963684713400, 21713327413830241075947341223134156141100, 9740558092185528706967031576733079390400, 4238946577154813418772689667652358623600, 1788913234395609332693061694605582538400, 731828141343658363374434329611374674800, 290094038010098810706982977503607979200, 111375389593162936253573821720135206300, 41396162503653480731416818692439634200, 14888093532015725526211311985877412300, 5178467315483730617812630255957360800, 1741036425033323224954246379158078200, 565464821805694722634712499213734800, 177306766159412752012579342973798200, 53639021695284530020612238210560800, 15644714661124654589345236144746900, 4396035524613539306097008503482600, 1189091576329891779518043283728900, 309357158069565341012824268937600, 77339289517391335253206067234400, 18561429484173920460769456136256, 4272075040008283280653287523424, 941874811970330172112535831936, 198676718149991520679988027049, 40043369549610694090540222506, 7700647990309748863565427405, 1410805738682702081874582120, 245822212043198090023601430, 40662320789100435943753620, 6372453257993351901633030, 944067149332348429871560, 131891734097901618879115, 17328840976366636057110, 2134712294190092847615, 245722278467924356560, 26327386978706181060, 2614066792211961240, 239315973934897860, 20082459351180240, 1534076755992935, 105798396965030, 6521818990995, 354928924680, 16787178870, 675993780, 22533126, 596904, 11781, 154, 1]

/-- Row 155 of Pascal's triangle (A007318.cpp). -/
def row155 : List Nat := [1, 155, 11935, 608685, 23130030, 698526906, 17463172650, 371716103550, 6876747915675, 112320215956025, 1639875152957965, 21616536107173175, 259398433286078100, 2853382766146859100, 28941453770918142300, 272049665446630537620, 2380434572658017204175, 19463553270556728904725, 149220575074268254936225, 1075958883430250048750675, 7316520407325700331504590, 47034774047093787845386650, 286484532832298525967355050, 1656627950725900171898183550, 9111453728992450945440009525, 47744017539920442954105649911, 238720087699602214770528249555, 1140551530120321692792523858985, 5213949851978613452765823355360, 22833504524182203741422743659680, 95900719001565255713975523370656, 386696447586956676266030336172000, 1498448734399457120530867552666500, 5585127100943431085615051787211500, 20040750185738193895442244648229500, 69283736356409184609957474355307700, 230945787854697282033191581184359000, 742771587965107474647291842187533000, 2306501246839017947588958878371813000, 6919503740517053842766876635115439000, 20066560847499456144023942241834773100, 56284256035669206257628130678317046500, 152771552096816416984990640412574840500, 401469427603261746960556799223743185500, 1021922179353757174081417307114982654000, 2520741375739267696067496024216957213200, 6027859811550422751465751362257941162000, 13979504669340342125739721244385438014000, 31453885506015769782914372799867235531500, 68685015288646680954527303869097840854500, 145612232411930963623597884202487422611540, 299789890259857866283877996887474105376700, 599579780519715732567755993774948210753400, 1165221082896806046310922025638106900143400, 2200973156582855865253963826205313033604200, 4041787069361244407102733571758847570800440, 7217476909573650726969167092426513519286500, 12535617790312130209999079686846049796655500, 21180871438803254492757065677774360001245500, 34822788636676537047414158826171405425776500, 55716461818682459275862654121874248681242400, 86771538897948092314868067894722190569148000, 131556849296889043187058038421030417959676000, 194202968009693349466609485288187759845236000, 279166766513934189858251135101769904777526750, 390833473119507865801551589142477866688537450, 532954736072056180638479439739742545484369250, 707954798662880598161562240848314724598639750, 916176798269610185856139370509583761245298500, 1155179441296465016949045293251214307657115500, 1419220456449942735108827074565777577978741900, 1699066743637255387102116920254804142650606500, 1982244534243464618285803073630604833092374250, 2253784881400103607092077467278632892420096750, 2497437301010925618669599355633079691600647750, 2697232285091799668163167304083726066928699570, 2839191879043999650698070846403922175714420600, 2912937122655532109157760998258569504953756200, 2912937122655532109157760998258569504953756200, 2839191879043999650698070846403922175714420600, 2697232285091799668163167304083726066928699570, 2497437301010925618669599355633079691600647750, 2253784881400103607092077467278632892420096750, 1982244534243464618285803073630604833092374250, 1699066743637255387102116920254804142650606500, 1419220456449942735108827074565777577978741900, 1155179441296465016949045293251214307657115500, 916176798269610185856139370509583761245298500, 707954798662880598161562240848314724598639750, 532954736072056180638479439739742545484369250, 390833473119507865801551589142477866688537450, 279166766513934189858251135101769904777526750, 194202968009693349466609485288187759845236000, 131556849296889043187058038421030417959676000, 86771538897948092314868067894722190569148000, 55716461818682459275862654121874248681242400, 34822788636676537047414158826171405425776500, 21180871438803254492757065677774360001245500, 12535617790312130209999079686846049796655500, 7217476909573650726969167092426513519286500, 4041787069361244407102733571758847570800440, 2200973156582855865253963826205313033604200, 1165221082896806046310922025638106900143400, 599579780519715732567755993774948210753400, 299789890259857866283877996887474105376700, 145612232411930963623597884202487422611540, 68685015288646680954527303869097840854500, 31453885506015769782914372799867235531500, 13979504669340342125739721244385438014000, 6027859811550422751465751362257941162000, 2520741375739267696067496024216957213200, 1021922179353757174081417307114982654000, 401469427603261746960556799223743185500, 152771552096816416984990640412574840500, 56284256035669206257628130678317046500, 20066560847499456144023942241834773100, 6919503740517053842766876635115439000, 2306501246839017947588958878371813000, 742771587965107474647291842187533000, 230945787854697282033191581184359000, 69283736356409184609957474355307700, 20040750185738193895442244648229500, 5585127100943431085615051787211500, 1498448734399457120530867552666500, 386696447586956676266030336172000, 95900719001565255713975523370656, 22833504524182203741422743659680, 5213949851978613452765823355360, 1140551530120321692792523858985, 238720087699602214770528249555, 47744017539920442954105649911, 9111453728992450945440009525, 1656627950725900171898183550, 286484532832298525967355050, 47034774047093787845386650, 7316520407325700331504590, 1075958883430250048750675, 149220575074268254936225, 19463553270556728904725, 2380434572658017204175, 272049665446630537620, 28941453770918142300, 2853382766146859100, 259398433286078100, 21616536107173175, 1639875152957965, 112320215956025, 6876747915675, 371716103550, 17463172650, 698526906, 23130030, 608685, 11935, 155, 1]

/-- Row 156 of Pascal's triangle (A007318.cpp). -/
def row156 : List Nat := [1, 156, 12090, 620620, 23738715, 721656936, 18161699556, 389179276200, 7248464019225, 119196963871700, 1752195368913990, 23256411260131140, 281014969393251275, 3112781199432937200, 31794836537065001400, 300991119217548679920, 2652484238104647741795, 21843987843214746108900, 168684128344824983840950, 1225179458504518303686900, 8392479290755950380255265, 54351294454419488176891240, 333519306879392313812741700, 1943112483558198697865538600, 10768081679718351117338193075, 56855471268912893899545659436, 286464105239522657724633899466, 1379271617819923907563052108540, 6354501382098935145558347214345, 28047454376160817194188567015040, 118734223525747459455398267030336, 482597166588521931980005859542656, 1885145181986413796796897888838500, 7083575835342888206145919339878000, 25625877286681624981057296435441000, 89324486542147378505399719003537200, 300229524211106466643149055539666700, 973717375819804756680483423371892000, 3049272834804125422236250720559346000, 9226004987356071790355835513487252000, 26986064588016509986790818876950212100, 76350816883168662401652072920151819600, 209055808132485623242618771090891887000, 554240979700078163945547439636318026000, 1423391606957018921041974106338725839500, 3542663555093024870148913331331939867200, 8548601187289690447533247386474898375200, 20007364480890764877205472606643379176000, 45433390175356111908654094044252673545500, 100138900794662450737441676668965076386000, 214297247700577644578125188071585263466040, 445402122671788829907475881089961527988240, 899369670779573598851633990662422316130100, 1764800863416521778878678019413055110896800, 3366194239479661911564885851843419933747600, 6242760225944100272356697397964160604404640, 11259263978934895134071900664185361090086940, 19753094699885780936968246779272563315942000, 33716489229115384702756145364620409797901000, 56003660075479791540171224503945765427022000, 90539250455358996323276812948045654107018900, 142488000716630551590730722016596439250390400, 218328388194837135501926106315752608528824000, 325759817306582392653667523709218177804912000, 473369734523627539324860620389957664622762750, 670000239633442055659802724244247771466064200, 923788209191564046440031028882220412172906700, 1240909534734936778800041680588057270083009000, 1624131596932490784017701611357898485843938250, 2071356239566075202805184663760798068902414000, 2574399897746407752057872367816991885635857400, 3118287200087198122210943994820581720629348400, 3681311277880720005387919993885408975742980750, 4236029415643568225377880540909237725512471000, 4751222182411029225761676822911712584020744500, 5194669586102725286832766659716805758529347320, 5536424164135799318861238150487648242643120170, 5752129001699531759855831844662491680668176800, 5825874245311064218315521996517139009907512400, 5752129001699531759855831844662491680668176800, 5536424164135799318861238150487648242643120170, 5194669586102725286832766659716805758529347320, 4751222182411029225761676822911712584020744500, 4236029415643568225377880540909237725512471000, 3681311277880720005387919993885408975742980750, 3118287200087198122210943994820581720629348400, 2574399897746407752057872367816991885635857400, 2071356239566075202805184663760798068902414000, 1624131596932490784017701611357898485843938250, 1240909534734936778800041680588057270083009000, 923788209191564046440031028882220412172906700, 670000239633442055659802724244247771466064200, 473369734523627539324860620389957664622762750, 325759817306582392653667523709218177804912000, 218328388194837135501926106315752608528824000, 142488000716630551590730722016596439250390400, 90539250455358996323276812948045654107018900, 56003660075479791540171224503945765427022000, 33716489229115384702756145364620409797901000, 19753094699885780936968246779272563315942000, 11259263978934895134071900664185361090086940, 6242760225944100272356697397964160604404640, 3366194239479661911564885851843419933747600, 1764800863416521778878678019413055110896800, 899369670779573598851633990662422316130100, 445402122671788829907475881089961527988240, 214297247700577644578125188071585263466040, 100138900794662450737441676668965076386000, 45433390175356111908654094044252673545500, 20007364480890764877205472606643379176000, 8548601187289690447533247386474898375200, 3542663555093024870148913331331939867200, 1423391606957018921041974106338725839500, 554240979700078163945547439636318026000, 209055808132485623242618771090891887000, 76350816883168662401652072920151819600, 26986064588016509986790818876950212100, 9226004987356071790355835513487252000, 3049272834804125422236250720559346000, 973717375819804756680483423371892000, 300229524211106466643149055539666700, 89324486542147378505399719003537200, 25625877286681624981057296435441000, 7083575835342888206145919339878000, 1885145181986413796796897888838500, 482597166588521931980005859542656, 118734223525747459455398267030336, 28047454376160817194188567015040, 6354501382098935145558347214345, 1379271617819923907563052108540, 286464105239522657724633899466, 56855471268912893899545659436, 10768081679718351117338193075, 1943112483558198697865538600, 333519306879392313812741700, 54351294454419488176891240, 8392479290755950380255265, 1225179458504518303686900, 168684128344824983840950, 21843987843214746108900, 2652484238104647741795, 300991119217548679920, 31794836537065001400, 3112781199432937200, 281014969393251275, 23256411260131140, 1752195368913990, 119196963871700, 7248464019225, 389179276200, 18161699556, 721656936, 23738715, 620620, 12090, 156, 1]

/-- Row 157 of Pascal's triangle (A007318.cpp). -/
def row157 : List Nat := [1, 157, 12246, 632710, 24359335, 745395651, 18883356492, 407340975756, 7637643295425, 126445427890925, 1871392332785690, 25008606629045130, 304271380653382415, 3393796168826188475, 34907617736497938600, 332785955754613681320, 2953475357322196421715, 24496472081319393850695, 190528116188039729949850, 1393863586849343287527850, 9617658749260468683942165, 62743773745175438557146505, 387870601333811801989632940, 2276631790437591011678280300, 12711194163276549815203731675, 67623552948631245016883852511, 343319576508435551624179558902, 1665735723059446565287686008006, 7733772999918859053121399322885, 34401955758259752339746914229385, 146781677901908276649586834045376, 601331390114269391435404126572992, 2367742348574935728776903748381156, 8968721017329302002942817228716500, 32709453122024513187203215775319000, 114950363828829003486457015438978200, 389554010753253845148548774543203900, 1273946900030911223323632478911558700, 4022990210623930178916734143931238000, 12275277822160197212592086234046598000, 36212069575372581777146654390437464100, 103336881471185172388442891797102031700, 285406625015654285644270844011043706600, 763296787832563787188166210727209913000, 1977632586657097084987521545975043865500, 4966055162050043791190887437670665706700, 12091264742382715317682160717806838242400, 28555965668180455324738719993118277551200, 65440754656246876785859566650896052721500, 145572290970018562646095770713217749931500, 314436148495240095315566864740550339852040, 659699370372366474485601069161546791454280, 1344771793451362428759109871752383844118340, 2664170534196095377730312010075477427026900, 5130995102896183690443563871256475044644400, 9608954465423762183921583249807580538152240, 17502024204878995406428598062149521694491580, 31012358678820676071040147443457924406028940, 53469583929001165639724392143892973113843000, 89720149304595176242927369868566175224923000, 146542910530838787863448037451991419534040900, 233027251171989547914007534964642093357409300, 360816388911467687092656828332349047779214400, 544088205501419528155593630024970786333736000, 799129551830209931978528144099175842427674750, 1143369974157069594984663344634205436088826950, 1593788448825006102099833753126468183638970900, 2164697743926500825240072709470277682255915700, 2865041131667427562817743291945955755926947250, 3695487836498565986822886275118696554746352250, 4645756137312482954863057031577789954538271400, 5692687097833605874268816362637573606265205800, 6799598477967918127598863988705990696372329150, 7917340693524288230765800534794646701255451750, 8987251598054597451139557363820950309533215500, 9945891768513754512594443482628518342550091820, 10731093750238524605694004810204454001172467490, 11288553165835331078717069995150139923311296970, 11578003247010595978171353841179630690575689200, 11578003247010595978171353841179630690575689200, 11288553165835331078717069995150139923311296970, 10731093750238524605694004810204454001172467490, 9945891768513754512594443482628518342550091820, 8987251598054597451139557363820950309533215500, 7917340693524288230765800534794646701255451750, 6799598477967918127598863988705990696372329150, 5692687097833605874268816362637573606265205800, 4645756137312482954863057031577789954538271400, 3695487836498565986822886275118696554746352250, 2865041131667427562817743291945955755926947250, 2164697743926500825240072709470277682255915700, 1593788448825006102099833753126468183638970900, 1143369974157069594984663344634205436088826950, 799129551830209931978528144099175842427674750, 544088205501419528155593630024970786333736000, 360816388911467687092656828332349047779214400, 233027251171989547914007534964642093357409300, 146542910530838787863448037451991419534040900, 89720149304595176242927369868566175224923000, 53469583929001165639724392143892973113843000, 31012358678820676071040147443457924406028940, 17502024204878995406428598062149521694491580, 9608954465423762183921583249807580538152240, 5130995102896183690443563871256475044644400, 2664170534196095377730312010075477427026900, 1344771793451362428759109871752383844118340, 659699370372366474485601069161546791454280, 314436148495240095315566864740550339852040, 145572290970018562646095770713217749931500, 65440754656246876785859566650896052721500, 28555965668180455324738719993118277551200, 12091264742382715317682160717806838242400, 4966055162050043791190887437670665706700, 1977632586657097084987521545975043865500, 763296787832563787188166210727209913000, 285406625015654285644270844011043706600, 103336881471185172388442891797102031700, 36212069575372581777146654390437464100, 12275277822160197212592086234046598000, 4022990210623930178916734143931238000, 1273946900030911223323632478911558700, 389554010753253845148548774543203900, 114950363828829003486457015438978200, 32709453122024513187203215775319000, 8968721017329302002942817228716500, 2367742348574935728776903748381156, 601331390114269391435404126572992, 146781677901908276649586834045376, 34401955758259752339746914229385, 7733772999918859053121399322885, 1665735723059446565287686008006, 343319576508435551624179558902, 67623552948631245016883852511, 12711194163276549815203731675, 2276631790437591011678280300, 387870601333811801989632940, 62743773745175438557146505, 9617658749260468683942165, 1393863586849343287527850, 190528116188039729949850, 24496472081319393850695, 2953475357322196421715, 332785955754613681320, 34907617736497938600, 3393796168826188475, 304271380653382415, 25008606629045130, 1871392332785690, 126445427890925, 7637643295425, 407340975756, 18883356492, 745395651, 24359335, 632710, 12246, 157, 1]

/-- Row 158 of Pascal's triangle (A007318.cpp). -/
def row158 : List Nat := [1, 158, 12403, 644956, 24992045, 769754986, 19628752143, 426224332248, 8044984271181, 134083071186350, 1997837760676615, 26879998961830820, 329279987282427545, 3698067549479570890, 38301413905324127075, 367693573491111619920, 3286261313076810103035, 27449947438641590272410, 215024588269359123800545, 1584391703037383017477700, 11011522336109811971470015, 72361432494435907241088670, 450614375078987240546779445, 2664502391771402813667913240, 14987825953714140826882011975, 80334747111907794832087584186, 410943129457066796641063411413, 2009055299567882116911865566908, 9399508722978305618409085330891, 42135728758178611392868313552270, 181183633660168028989333748274761, 748113068016177668084990960618368, 2969073738689205120212307874954148, 11336463365904237731719720977097656, 41678174139353815190146033004035500, 147659816950853516673660231214297200, 504504374582082848635005789982182100, 1663500910784165068472181253454762600, 5296937110654841402240366622842796700, 16298268032784127391508820377977836000, 48487347397532778989738740624484062100, 139548951046557754165589546187539495800, 388743506486839458032713735808145738300, 1048703412848218072832437054738253619600, 2740929374489660872175687756702253778500, 6943687748707140876178408983645709572200, 17057319904432759108873048155477503949100, 40647230410563170642420880710925115793600, 93996720324427332110598286644014330272700, 211013045626265439431955337364113802653000, 460008439465258657961662635453768089783540, 974135518867606569801167933902097131306320, 2004471163823728903244710940913930635572620, 4008942327647457806489421881827861271145240, 7795165637092279068173875881331952471671300, 14739949568319945874365147121064055582796640, 27110978670302757590350181311957102232643820, 48514382883699671477468745505607446100520520, 84481942607821841710764539587350897519871940, 143189733233596341882651762012459148338766000, 236263059835433964106375407320557594758963900, 379570161702828335777455572416633512891450200, 593843640083457235006664363296991141136623700, 904904594412887215248250458357319834112950400, 1343217757331629460134121774124146628761410750, 1942499525987279526963191488733381278516501700, 2737158422982075697084497097760673619727797850, 3758486192751506927339906462596745865894886600, 5029738875593928388057816001416233438182862950, 6560528968165993549640629567064652310673299500, 8341243973811048941685943306696486509284623650, 10338443235146088829131873394215363560803477200, 12492285575801524001867680351343564302637534950, 14716939171492206358364664523500637397627780900, 16904592291578885681905357898615597010788667250, 18933143366568351963734000846449468652083307320, 20676985518752279118288448292832972343722559310, 22019646916073855684411074805354593924483764460, 22866556412845927056888423836329770613886986170, 23156006494021191956342707682359261381151378400, 22866556412845927056888423836329770613886986170, 22019646916073855684411074805354593924483764460, 20676985518752279118288448292832972343722559310, 18933143366568351963734000846449468652083307320, 16904592291578885681905357898615597010788667250, 14716939171492206358364664523500637397627780900, 12492285575801524001867680351343564302637534950, 10338443235146088829131873394215363560803477200, 8341243973811048941685943306696486509284623650, 6560528968165993549640629567064652310673299500, 5029738875593928388057816001416233438182862950, 3758486192751506927339906462596745865894886600, 2737158422982075697084497097760673619727797850, 1942499525987279526963191488733381278516501700, 1343217757331629460134121774124146628761410750, 904904594412887215248250458357319834112950400, 593843640083457235006664363296991141136623700, 379570161702828335777455572416633512891450200, 236263059835433964106375407320557594758963900, 143189733233596341882651762012459148338766000, 84481942607821841710764539587350897519871940, 48514382883699671477468745505607446100520520, 27110978670302757590350181311957102232643820, 14739949568319945874365147121064055582796640, 7795165637092279068173875881331952471671300, 4008942327647457806489421881827861271145240, 2004471163823728903244710940913930635572620, 974135518867606569801167933902097131306320, 460008439465258657961662635453768089783540, 211013045626265439431955337364113802653000, 93996720324427332110598286644014330272700, 40647230410563170642420880710925115793600, 17057319904432759108873048155477503949100, 6943687748707140876178408983645709572200, 2740929374489660872175687756702253778500, 1048703412848218072832437054738253619600, 388743506486839458032713735808145738300, 139548951046557754165589546187539495800, 48487347397532778989738740624484062100, 16298268032784127391508820377977836000, 5296937110654841402240366622842796700, 1663500910784165068472181253454762600, 504504374582082848635005789982182100, 147659816950853516673660231214297200, 41678174139353815190146033004035500, 11336463365904237731719720977097656, 2969073738689205120212307874954148, 748113068016177668084990960618368, 181183633660168028989333748274761, 42135728758178611392868313552270, 9399508722978305618409085330891, 2009055299567882116911865566908, 410943129457066796641063411413, 80334747111907794832087584186, 14987825953714140826882011975, 2664502391771402813667913240, 450614375078987240546779445, 72361432494435907241088670, 11011522336109811971470015, 1584391703037383017477700, 215024588269359123800545, 27449947438641590272410, 3286261313076810103035, 367693573491111619920, 38301413905324127075, 3698067549479570890, 329279987282427545, 26879998961830820, 1997837760676615, 134083071186350, 8044984271181, 426224332248, 19628752143, 769754986, 24992045, 644956, 12403, 158, 1]

/-- Row 159 of Pascal's triangle (A007318.cpp). -/
def row159 : List Nat := [1, 159, 12561, 657359, 25637001, 794747031, 20398507129, 445853084391, 8471208603429, 142128055457531, 2131920831862965, 28877836722507435, 356159986244258365, 4027347536761998435, 41999481454803697965, 405994987396435746995, 3653954886567921722955, 30736208751718400375445, 242474535708000714072955, 1799416291306742141278245, 12595914039147194988947715, 83372954830545719212558685, 522975807573423147787868115, 3115116766850390054214692685, 17652328345485543640549925215, 95322573065621935658969596161, 491277876568974591473150995599, 2419998429024948913552928978321, 11408564022546187735320950897799, 51535237481156917011277398883161, 223319362418346640382202061827031, 929296701676345697074324708893129, 3717186806705382788297298835572516, 14305537104593442851932028852051804, 53014637505258052921865753981133156, 189337991090207331863806264218332700, 652164191532936365308666021196479300, 2168005285366247917107187043436944700, 6960438021439006470712547876297559300, 21595205143438968793749187000820632700, 64785615430316906381247561002461898100, 188036298444090533155328286812023557900, 528292457533397212198303281995685234100, 1437446919335057530865150790546399357900, 3789632787337878945008124811440507398100, 9684617123196801748354096740347963350700, 24001007653139899985051457139123213521300, 57704550314995929751293928866402619742700, 134643950734990502753019167354939446066300, 305009765950692771542553624008128132925700, 671021485091524097393617972817881892436540, 1434143958332865227762830569355865221089860, 2978606682691335473045878874816027766878940, 6013413491471186709734132822741791906717860, 11804107964739736874663297763159813742816540, 22535115205412224942539023002396008054467940, 41850928238622703464715328433021157815440460, 75625361554002429067818926817564548333164340, 132996325491521513188233285092958343620392460, 227671675841418183593416301599810045858637940, 379452793069030305989027169333016743097729900, 615833221538262299883830979737191107650414100, 973413801786285570784119935713624654028073900, 1498748234496344450254914821654310975249574100, 2248122351744516675382372232481466462874361150, 3285717283318908987097313262857527907277912450, 4679657948969355224047688586494054898244299550, 6495644615733582624424403560357419485622684450, 8788225068345435315397722464012979304077749550, 11590267843759921937698445568480885748856162450, 14901772941977042491326572873761138819957923150, 18679687208957137770817816700911850070088100850, 22830728810947612830999553745558927863441012150, 27209224747293730360232344874844201700265315850, 31621531463071092040270022422116234408416448150, 35837735658147237645639358745065065662871974570, 39610128885320631082022449139282440995805866630, 42696632434826134802699523098187566268206323770, 44886203328919782741299498641684364538370750630, 46022562906867119013231131518689031995038364570, 46022562906867119013231131518689031995038364570, 44886203328919782741299498641684364538370750630, 42696632434826134802699523098187566268206323770, 39610128885320631082022449139282440995805866630, 35837735658147237645639358745065065662871974570, 31621531463071092040270022422116234408416448150, 27209224747293730360232344874844201700265315850, 22830728810947612830999553745558927863441012150, 18679687208957137770817816700911850070088100850, 14901772941977042491326572873761138819957923150, 11590267843759921937698445568480885748856162450, 8788225068345435315397722464012979304077749550, 6495644615733582624424403560357419485622684450, 4679657948969355224047688586494054898244299550, 3285717283318908987097313262857527907277912450, 2248122351744516675382372232481466462874361150, 1498748234496344450254914821654310975249574100, 973413801786285570784119935713624654028073900, 615833221538262299883830979737191107650414100, 379452793069030305989027169333016743097729900, 227671675841418183593416301599810045858637940, 132996325491521513188233285092958343620392460, 75625361554002429067818926817564548333164340, 41850928238622703464715328433021157815440460, 22535115205412224942539023002396008054467940, 11804107964739736874663297763159813742816540, 6013413491471186709734132822741791906717860, 2978606682691335473045878874816027766878940, 1434143958332865227762830569355865221089860, 671021485091524097393617972817881892436540, 305009765950692771542553624008128132925700, 134643950734990502753019167354939446066300, 57704550314995929751293928866402619742700, 24001007653139899985051457139123213521300, 9684617123196801748354096740347963350700, 3789632787337878945008124811440507398100, 1437446919335057530865150790546399357900, 528292457533397212198303281995685234100, 188036298444090533155328286812023557900, 64785615430316906381247561002461898100, 21595205143438968793749187000820632700, 6960438021439006470712547876297559300, 2168005285366247917107187043436944700, 652164191532936365308666021196479300, 189337991090207331863806264218332700, 53014637505258052921865753981133156, 14305537104593442851932028852051804, 3717186806705382788297298835572516, 929296701676345697074324708893129, 223319362418346640382202061827031, 51535237481156917011277398883161, 11408564022546187735320950897799, 2419998429024948913552928978321, 491277876568974591473150995599, 95322573065621935658969596161, 17652328345485543640549925215, 3115116766850390054214692685, 522975807573423147787868115, 83372954830545719212558685, 12595914039147194988947715, 1799416291306742141278245, 242474535708000714072955, 30736208751718400375445, 3653954886567921722955, 405994987396435746995, 41999481454803697965, 4027347536761998435, 356159986244258365, 28877836722507435, 2131920831862965, 142128055457531, 8471208603429, 445853084391, 20398507129, 794747031, 25637001, 657359, 12561, 159, 1]

/-- Row 160 of Pascal's triangle (A007318.cpp). -/
def row160 : List Nat := [1, 160, 12720, 669920, 26294360, 820384032, 21193254160, 466251591520, 8917061687820, 150599264060960, 2274048887320496, 31009757554370400, 385037822966765800, 4383507523006256800, 46026828991565696400, 447994468851239444960, 4059949873964357469950, 34390163638286322098400, 273210744459719114448400, 2041890827014742855351200, 14395330330453937130225960, 95968868869692914201506400, 606348762403968867000426800, 3638092574423813202002560800, 20767445112335933694764617900, 112974901411107479299519521376, 586600449634596527132120591760, 2911276305593923505026079973920, 13828562451571136648873879876120, 62943801503703104746598349780960, 274854599899503557393479460710192, 1152616064094692337456526770720160, 4646483508381728485371623544465645, 18022723911298825640229327687624320, 67320174609851495773797782833184960, 242352628595465384785672018199465856, 841502182623143697172472285414812000, 2820169476899184282415853064633424000, 9128443306805254387819734919734504000, 28555643164877975264461734877118192000, 86380820573755875174996748003282530800, 252821913874407439536575847814485456000, 716328755977487745353631568807708792000, 1965739376868454743063454072542084592000, 5227079706672936475873275601986906756000, 13474249910534680693362221551788470748800, 33685624776336701733405553879471176872000, 81705557968135829736345386005525833264000, 192348501049986432504313096221342065809000, 439653716685683274295572791363067578992000, 976031251042216868936171596826010025362240, 2105165443424389325156448542173747113526400, 4412750641024200700808709444171892987968800, 8992020174162522182780011697557819673596800, 17817521456210923584397430585901605649534400, 34339223170151961817202320765555821797284480, 64386043444034928407254351435417165869908400, 117476289792625132532534255250585706148604800, 208621687045523942256052211910522891953556800, 360668001332939696781649586692768389479030400, 607124468910448489582443470932826788956367840, 995286014607292605872858149070207850748144000, 1589247023324547870667950915450815761678488000, 2472162036282630021039034757367935629277648000, 3746870586240861125637287054135777438123935250, 5533839635063425662479685495338994370152273600, 7965375232288264211145001849351582805522212000, 11175302564702937848472092146851474383866984000, 15283869684079017939822126024370398789700434000, 20378492912105357253096168032493865052933912000, 26492040785736964429025018442242024568814085600, 33581460150934180262144389574672988890046024000, 41510416019904750601817370446470777933529113000, 50039953558241343191231898620403129563706328000, 58830756210364822400502367296960436108681764000, 67459267121218329685909381167181300071288422720, 75447864543467868727661807884347506658677841200, 82306761320146765884721972237470007264012190400, 87582835763745917543999021739871930806577074400, 90908766235786901754530630160373396533409115200, 92045125813734238026462263037378063990076729140, 90908766235786901754530630160373396533409115200, 87582835763745917543999021739871930806577074400, 82306761320146765884721972237470007264012190400, 75447864543467868727661807884347506658677841200, 67459267121218329685909381167181300071288422720, 58830756210364822400502367296960436108681764000, 50039953558241343191231898620403129563706328000, 41510416019904750601817370446470777933529113000, 33581460150934180262144389574672988890046024000, 26492040785736964429025018442242024568814085600, 20378492912105357253096168032493865052933912000, 15283869684079017939822126024370398789700434000, 11175302564702937848472092146851474383866984000, 7965375232288264211145001849351582805522212000, 5533839635063425662479685495338994370152273600, 3746870586240861125637287054135777438123935250, 2472162036282630021039034757367935629277648000, 1589247023324547870667950915450815761678488000, 995286014607292605872858149070207850748144000, 607124468910448489582443470932826788956367840, 360668001332939696781649586692768389479030400, 208621687045523942256052211910522891953556800, 117476289792625132532534255250585706148604800, 64386043444034928407254351435417165869908400, 34339223170151961817202320765555821797284480, 17817521456210923584397430585901605649534400, 8992020174162522182780011697557819673596800, 4412750641024200700808709444171892987968800, 2105165443424389325156448542173747113526400, 976031251042216868936171596826010025362240, 439653716685683274295572791363067578992000, 192348501049986432504313096221342065809000, 81705557968135829736345386005525833264000, 33685624776336701733405553879471176872000, 13474249910534680693362221551788470748800, 5227079706672936475873275601986906756000, 1965739376868454743063454072542084592000, 716328755977487745353631568807708792000, 252821913874407439536575847814485456000, 86380820573755875174996748003282530800, 28555643164877975264461734877118192000, 9128443306805254387819734919734504000, 2820169476899184282415853064633424000, 841502182623143697172472285414812000, 242352628595465384785672018199465856, 67320174609851495773797782833184960, 18022723911298825640229327687624320, 4646483508381728485371623544465645, 1152616064094692337456526770720160, 274854599899503557393479460710192, 62943801503703104746598349780960, 13828562451571136648873879876120, 2911276305593923505026079973920, 586600449634596527132120591760, 112974901411107479299519521376, 20767445112335933694764617900, 3638092574423813202002560800, 606348762403968867000426800, 95968868869692914201506400, 14395330330453937130225960, 2041890827014742855351200, 273210744459719114448400, 34390163638286322098400, 4059949873964357469950, 447994468851239444960, 46026828991565696400, 4383507523006256800, 385037822966765800, 31009757554370400, 2274048887320496, 150599264060960, 8917061687820, 466251591520, 21193254160, 820384032, 26294360, 669920, 12720, 160, 1]

/-- Rows of Pascal's triangle (A007318.cpp 23-14823); no entry has an exponent or a sign. -/
def a7318 : List (List Nat) :=
  [row0, row1, row2, row3, row4, row5, row6, row7, row8, row9, row10, row11, row12, row13, row14, row15, row16, row17, row18, row19, row20, row21, row22, row23, row24, row25, row26, row27, row28, row29, row30, row31, row32, row33, row34, row35, row36, row37, row38, row39, row40, row41, row42, row43, row44, row45, row46, row47, row48, row49, row50, row51, row52, row53, row54, row55, row56, row57, row58, row59, row60, row61, row62, row63, row64, row65, row66, row67, row68, row69, row70, row71, row72, row73, row74, row75, row76, row77, row78, row79, row80, row81, row82, row83, row84, row85, row86, row87, row88, row89, row90, row91, row92, row93, row94, row95, row96, row97, row98, row99, row100, row101, row102, row103, row104, row105, row106, row107, row108, row109, row110, row111, row112, row113, row114, row115, row116, row117, row118, row119, row120, row121, row122, row123, row124, row125, row126, row127, row128, row129, row130, row131, row132, row133, row134, row135, row136, row137, row138, row139, row140, row141, row142, row143, row144, row145, row146, row147, row148, row149, row150, row151, row152, row153, row154, row155, row156, row157, row158, row159, row160]

end EFX.TabData
