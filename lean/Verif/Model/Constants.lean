import Verif.Model.Text
import Verif.Model.ElementaryE
import Verif.Model.Special
/-!
# The mathematical constants

The strings of constants.cpp, piece by piece as in the source.  A constant is a function-local static initialised from
its string with the constructor from text; simplification: the initialisation is a pure function of the configuration.
-/

namespace EFX.Const

/-- The string of `ef::sqrt2` (constants.cpp 60-71). -/
def sqrt2Text : List Char :=
  ["1.",
   "4142135623730950488016887242096980785696718753769480731766797379907324784621070388503875343276415727",
   "3501384623091229702492483605585073721264412149709993583141322266592750559275579995050115278206057147",
   "0109559971605970274534596862014728517418640889198609552329230484308714321450839762603627995251407989",
   "6872533965463318088296406206152583523950547457502877599617298355752203375318570113543746034084988471",
   "6038689997069900481503054402779031645424782306849293691862158057846311159666871301301561856898723723",
   "5288509264861249497715421833420428568606014682472077143585487415565706967765372022648544701585880162",
   "0758474922657226002085584466521458398893944370926591800311388246468157082630100594858704003186480342",
   "1948972782906410450726368813137398552561173220402450912277002269411275736272804957381089675040183698",
   "6836845072579936472906076299694138047565482372899718032680247442062926912485905218100445984215059112",
   "0249441341728531478105803603371077309182869314710171111683916581726889419758716582152128229518488472",
   "0896946338628915628827659526351405422676532396946175112916024087155101351504553812875600526314680171"].flatMap String.toList

/-- `ef::sqrt2` (constants.cpp 56-76). -/
def sqrt2 (c : Cfg) : Option EFloat := ofString c sqrt2Text

/-- The string of `ef::pi` (constants.cpp 84-95). -/
def piText : List Char :=
  ["3.",
   "1415926535897932384626433832795028841971693993751058209749445923078164062862089986280348253421170679",
   "8214808651328230664709384460955058223172535940812848111745028410270193852110555964462294895493038196",
   "4428810975665933446128475648233786783165271201909145648566923460348610454326648213393607260249141273",
   "7245870066063155881748815209209628292540917153643678925903600113305305488204665213841469519415116094",
   "3305727036575959195309218611738193261179310511854807446237996274956735188575272489122793818301194912",
   "9833673362440656643086021394946395224737190702179860943702770539217176293176752384674818467669405132",
   "0005681271452635608277857713427577896091736371787214684409012249534301465495853710507922796892589235",
   "4201995611212902196086403441815981362977477130996051870721134999999837297804995105973173281609631859",
   "5024459455346908302642522308253344685035261931188171010003137838752886587533208381420617177669147303",
   "5982534904287554687311595628638823537875937519577818577805321712268066130019278766111959092164201989",
   "3809525720106548586327886593615338182796823030195203530185296899577362259941389124972177528347913152"].flatMap String.toList

/-- The string of `ef::e` (constants.cpp 168-179). -/
def eText : List Char :=
  ["2.",
   "7182818284590452353602874713526624977572470936999595749669676277240766303535475945713821785251664274",
   "2746639193200305992181741359662904357290033429526059563073813232862794349076323382988075319525101901",
   "1573834187930702154089149934884167509244761460668082264800168477411853742345442437107539077744992069",
   "5517027618386062613313845830007520449338265602976067371132007093287091274437470472306969772093101416",
   "9283681902551510865746377211125238978442505695369677078544996996794686445490598793163688923009879312",
   "7736178215424999229576351482208269895193668033182528869398496465105820939239829488793320362509443117",
   "3012381970684161403970198376793206832823764648042953118023287825098194558153017567173613320698112509",
   "9618188159304169035159888851934580727386673858942287922849989208680582574927961048419844436346324496",
   "8487560233624827041978623209002160990235304369941849146314093431738143640546253152096183690888707016",
   "7683964243781405927145635490613031072085103837505101157477041718986106873969655212671546889570350354",
   "0212340784981933432106817012100562788023519303322474501585390473041995777709350366041699732972508869"].flatMap String.toList

/-- `ef::e` (constants.cpp 164-184). -/
def e (c : Cfg) : Option EFloat := ofString c eText

/-- The string of `ef::ln2` (constants.cpp 192-203). -/
def ln2Text : List Char :=
  ["0.",
   "6931471805599453094172321214581765680755001343602552541206800094933936219696947156058633269964186875",
   "4200148102057068573368552023575813055703267075163507596193072757082837143519030703862389167347112335",
   "0115364497955239120475172681574932065155524734139525882950453007095326366642654104239157814952043740",
   "4303855008019441706416715186447128399681717845469570262716310645461502572074024816377733896385506952",
   "6066834113727387372292895649354702576265209885969320196505855476470330679365443254763274495125040606",
   "9438147104689946506220167720424524529612687946546193165174681392672504103802546259656869144192871608",
   "2938031727143677826548775664850856740776484514644399404614226031930967354025744460703080960850474866",
   "3852313818167675143866747664789088143714198549423151997354880375165861275352916610007105355824987941",
   "4729509293113897155998205654392871700072180857610252368892132449713893203784393530887748259701715591",
   "0708823683627589842589185353024363421436706118923678919237231467232172053401649256872747782344535347",
   "6481149418642386776774406069562657379600867076257199184734022651462837904883062033061144630073719489"].flatMap String.toList

/-- `ef::ln2` (constants.cpp 186-208). -/
def ln2 (c : Cfg) : Option EFloat := ofString c ln2Text

/-- The string of `ef::ln10` (constants.cpp 216-227). -/
def ln10Text : List Char :=
  ["2.",
   "3025850929940456840179914546843642076011014886287729760333279009675726096773524802359972050895982983",
   "4196778404228624863340952546508280675666628736909878168948290720832555468084379989482623319852839350",
   "5308965377732628846163366222287698219886746543667474404243274365155048934314939391479619404400222105",
   "1017141748003688084012647080685567743216228355220114804663715659121373450747856947683463616792101806",
   "4450706480002775026849167465505868569356734206705811364292245544057589257242082413146956890167589402",
   "5677631135691929203337658714166023010570308963457207544037084746994016826928280848118428931484852494",
   "8644871927809676271275775397027668605952496716674183485704422507197965004714951050492214776567636938",
   "6629769795221107182645497347726624257094293225827985025855097852653832076067263171643095059950878075",
   "2371033310119785754733154142180842754386359177811705430982748238504564801909561029929182431823752535",
   "7709750539565187697510374970888692180205189339507238539205144634197265287286965110862571492198849978",
   "7488737713456862091670584980782805975119385444500997813114691593466624107184669231010759843831919129"].flatMap String.toList

/-- `ef::ln10` (constants.cpp 210-232). -/
def ln10 (c : Cfg) : Option EFloat := ofString c ln10Text

/-- The string of `ef::euler_gamma` (constants.cpp 238-249). -/
def eulerGammaText : List Char :=
  ["0.",
   "5772156649015328606065120900824024310421593359399235988057672348848677267776646709369470632917467495",
   "1463144724980708248096050401448654283622417399764492353625350033374293733773767394279259525824709491",
   "6008735203948165670853233151776611528621199501507984793745085705740029921354786146694029604325421519",
   "0587755352673313992540129674205137541395491116851028079842348775872050384310939973613725530608893312",
   "6760017247953783675927135157722610273492913940798430103417771778088154957066107501016191663340152278",
   "9358679654972520362128792265559536696281763887927268013243101047650596370394739495763890657296792960",
   "1009015125195950922243501409349871228247949747195646976318506676129063811051824197444867836380861749",
   "4551698927923018773910729457815543160050021828440960537724342032854783670151773943987003023703395183",
   "2869000155819398804270741154222781971652301107356583396734871765049194181230004065469314299929777956",
   "9303100503086303418569803231083691640025892970890985486825777364288253954925873629596133298574739302",
   "3734388470703702844129201664178502487333790805627549984345907616431671031467107223700218107450444187"].flatMap String.toList

/-- `ef::euler_gamma` (constants.cpp 234-254). -/
def eulerGamma (c : Cfg) : Option EFloat := ofString c eulerGammaText

/-- The string of `ef::catalan` (constants.cpp 260-271). -/
def catalanText : List Char :=
  ["0.",
   "9159655941772190150546035149323841107741493742816721342664981196217630197762547694793565129261151062",
   "4857442261919619957903589880332585905943159473748115840699533202877331946051903872747816408786590902",
   "4706484152163000228727640942388259957741508816397470252482011560707644883807873370489900864775113225",
   "9971343407485407553230768565335768095835260219382323950800720680355761048235733942319149829836189977",
   "0690364041808621794110191753274314997823397610551224779530324875371878665828082360570225594194818097",
   "5350971131571261580424272363643985001738287597797653068370092980873887495610893659771940968726844441",
   "6680462162433986483891628044828150627302274207388431172218272190472255870531908685735423498539498309",
   "9191159673884645086151524996242370437451777372351775440708538464401321748392999947572446199754961975",
   "8706400747487070149093767887304586997986064487497464387206238513712392736304998503539223928787979063",
   "3644032354784535851927777787270906083031994301332316712476158709792455479119092126201854803963934243",
   "4956537596739494354730014385180705051250748861328564129344959502298722983162894816461622573989476232"].flatMap String.toList

/-- `ef::catalan` (constants.cpp 256-276). -/
def catalan (c : Cfg) : Option EFloat := ofString c catalanText

/-- The string of `ef::glaisher` (constants.cpp 282-293). -/
def glaisherText : List Char :=
  ["1.",
   "2824271291006226368753425688697917277676889273250011920637400217404063088588264611297364919582023743",
   "9420646120399000748933157791362775280404159072573861727522143343271434397873350679152573668569078765",
   "6114668644999778496275451817431239465276128213808180219264516851546143919901083573730703504903888123",
   "4188136749781330509377083368222249411587483734806439997883007012556700128699415770543205392758540581",
   "7315881554817629703847432504677751473746000316160230466132963429915580958792933634388728870198895346",
   "0725233184702489001091776941712153569193674967261270398013526526688689782188974017293758407501674721",
   "1489528881599666874316451389030696264559870469543740253099606800842447417554061490189444139386196089",
   "1296821735287986298843422036698990060698088878584958749408530734711709013266756750331052340522105414",
   "1767761563081919199971852370477613123153741353047258198147974517610275408349431438496523413945337306",
   "5832325673954957601692256427736926358821692159870775858274695751628415506485858908341282275562095470",
   "0291859326307937337694207752229094018708695195737807113096673517703001997619162841026237527268163782"].flatMap String.toList

/-- `ef::glaisher` (constants.cpp 278-298). -/
def glaisher (c : Cfg) : Option EFloat := ofString c glaisherText

/-- The string of `ef::khinchin` (constants.cpp 304-315). -/
def khinchinText : List Char :=
  ["2.",
   "6854520010653064453097148354817956938203822939944629530511523455572188595371520028011411749318476979",
   "9515346590528809008289767771641096305179253348325966838185231542133211949962603932852204481940961806",
   "8664166428930847788062036073705350103367263357728904990427070272345170262523702354581068631850103237",
   "4655803775026442524852869468234189949157306618987207994137235500057935736698933950879021244642075289",
   "7414591476930184490506017934993852254704042033779856398310157090222339100002207725096513324604444391",
   "9169146085968234821283246228292710126906974182348477675457348986254203392662351862086778136650969658",
   "3146995271837448054012195366666049648269890827548115254721177330319675947383719393578106059230401890",
   "7113496246737068412217946810740608918276695667117166837405904739368809534504899970471763904513432323",
   "7715103219651503824698888324870935399469608264781812056634946712578436664579740977848366204977774868",
   "2765697087163192938512899314199518611673792654620563505951385713761697126872299805327673278710513763",
   "9563719023145289003058136910904799672757571385043565050641590820999623402779053834180985121278529455"].flatMap String.toList

/-- `ef::khinchin` (constants.cpp 300-320). -/
def khinchin (c : Cfg) : Option EFloat := ofString c khinchinText

/-- The string of `ef::phi` (constants.cpp 326-337). -/
def phiText : List Char :=
  ["1.",
   "6180339887498948482045868343656381177203091798057628621354486227052604628189024497072072041893911374",
   "8475408807538689175212663386222353693179318006076672635443338908659593958290563832266131992829026788",
   "0675208766892501711696207032221043216269548626296313614438149758701220340805887954454749246185695364",
   "8644492410443207713449470495658467885098743394422125448770664780915884607499887124007652170575179788",
   "3416625624940758906970400028121042762177111777805315317141011704666599146697987317613560067087480710",
   "1317952368942752194843530567830022878569978297783478458782289110976250030269615617002504643382437764",
   "8610283831268330372429267526311653392473167111211588186385133162038400522216579128667529465490681131",
   "7159934323597349498509040947621322298101726107059611645629909816290555208524790352406020172799747175",
   "3427775927786256194320827505131218156285512224809394712341451702237358057727861600868838295230459264",
   "7878017889921990270776903895321968198615143780314997411069260886742962267575605231727775203536139362",
   "1076738937645560606059216589466759551900400555908950229530942312482355212212415444006470340565734798"].flatMap String.toList

/-- `ef::phi` (constants.cpp 322-342). -/
def phi (c : Cfg) : Option EFloat := ofString c phiText

/-- Tables for the loop of `ef::pi`, which uses none of their entries. -/
def noTables (c : Cfg) : Tables :=
  ⟨zero c, zero c, zero c, zero c, zero c, zero c, id, id, fun _ => none, fun x _ => x⟩

/-- `ef::pi` (constants.cpp 78-158): the string below 1010 digits, the loop otherwise. -/
def pi (c : Cfg) : Option EFloat :=
  if c.digits10 < 1010 then ofString c piText
  else (ofString c "0.375".toList).map (Fn.piAgm (efArith c (noTables c)))

/-- `ef::pi_half`, `ef::pi_squared`, `ef::two_pi`, `ef::sqrt_pi` (constants.cpp 159-162). -/
def piHalf (c : Cfg) : Option EFloat := (pi c).map fun x => divSigned c x 2
@[inherit_doc piHalf] def piSquared (c : Cfg) : Option EFloat := (pi c).map fun x => mul c x x
@[inherit_doc piHalf] def twoPi (c : Cfg) : Option EFloat := (pi c).map fun x => mulSigned c x 2
@[inherit_doc piHalf] def sqrtPi (c : Cfg) : Option EFloat := (pi c).map fun x => calculateSqrt c x

/-- The integer constants `ef::two` to `ef::billion` (constants.cpp 16-29) and `ef::one_minus` (45), by their values. -/
def ofInt (c : Cfg) (n : Int) : EFloat := ofSigned c n

/-- `ef::trillion`, `ef::googol` (constants.cpp 30-31). -/
def trillion (c : Cfg) : Option EFloat := ofString c "1e12".toList
@[inherit_doc trillion] def googol (c : Cfg) : Option EFloat := ofString c "1e100".toList

/-- `ef::tenth`, `eighth`, `fifth`, `quarter`, `third`, `two_third`, `three_half` (constants.cpp 47-53). -/
def tenth (c : Cfg) : EFloat := divSigned c (one c) 10
@[inherit_doc tenth] def eighth (c : Cfg) : EFloat := divSigned c (one c) 8
@[inherit_doc tenth] def fifth (c : Cfg) : EFloat := divSigned c (one c) 5
@[inherit_doc tenth] def quarter (c : Cfg) : EFloat := divSigned c (one c) 4
@[inherit_doc tenth] def third (c : Cfg) : EFloat := divSigned c (one c) 3
@[inherit_doc tenth] def twoThird (c : Cfg) : EFloat := divSigned c (ofSigned c 2) 3
@[inherit_doc tenth] def threeHalf (c : Cfg) : EFloat := add c (one c) (half c)


end EFX.Const
