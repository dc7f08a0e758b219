import Verif.Model.Constants
import Verif.SpecText
/-!
# The strings of the constants as numbers

The strings are compared with the decimal digits of the integers below, which are the digits after the point.
-/

namespace EFX
open Spec

/-- The last `k` decimal digits of `M` as characters. -/
def chars : ℕ → ℕ → List Char
  | 0, _ => []
  | k + 1, M => digitChars.getD (M / 10 ^ k % 10) '0' :: chars k M

theorem chars_length (k M : ℕ) : (chars k M).length = k := by
  induction k with
  | zero => rfl
  | succ k ih => simp [chars, ih]

theorem digit_mem (d : ℕ) (h : d < 10) : digitChars.getD d '0' ∈ digitChars ∧ digitChars.idxOf (digitChars.getD d '0') = d := by
  revert d; decide

theorem chars_digits (k M : ℕ) : IsDigits (chars k M) := by
  induction k with
  | zero => intro ch h; simp [chars] at h
  | succ k ih =>
    intro ch h
    rcases List.mem_cons.1 h with rfl | h
    · exact (digit_mem _ (Nat.mod_lt _ (by norm_num))).1
    · exact ih ch h

theorem number_chars (k M : ℕ) : number (chars k M) = M % 10 ^ k := by
  induction k with
  | zero => simp [chars, number, Nat.mod_one]
  | succ k ih =>
    rw [chars, number, chars_length, (digit_mem _ (Nat.mod_lt _ (by norm_num))).2, ih, pow_succ, Nat.mod_mul, add_comm, mul_comm]

/-- The literal `d.ddd…` with `k` digits after the point. -/
def decLit (d k M : ℕ) : Lit := ⟨none, [digitChars.getD d '0'], some (chars k M), none⟩

theorem decLit_valid (d k M : ℕ) (hd : d < 10) : (decLit d k M).Valid where
  di := by intro ch h; simp only [decLit, List.mem_singleton] at h; rw [h]; exact (digit_mem d hd).1
  df := chars_digits k M
  some_digit := by simp [decLit]
  dx := by intro a b e h; simp [decLit] at h

theorem decLit_small (d k M : ℕ) (hk : k < 2000000000) : (decLit d k M).Small where
  len := by simp [decLit, Lit.text, signText, chars_length]; omega
  exp := by simp [decLit, Lit.expo]

theorem decLit_text (d k M : ℕ) : (decLit d k M).text = digitChars.getD d '0' :: '.' :: chars k M := by
  simp [decLit, Lit.text, signText]

theorem decLit_value (d k M : ℕ) (hd : d < 10) (hM : M < 10 ^ k) :
    (decLit d k M).value = ((d * 10 ^ k + M : ℕ) : ℚ) / 10 ^ k := by
  have h1 : number [digitChars.getD d '0'] = d := by
    rw [number, (digit_mem d hd).2]; simp [number]
  simp only [Lit.value, Lit.absValue, Lit.expo, decLit, Lit.frac, Option.getD_some, h1, number_chars, chars_length,
    Nat.mod_eq_of_lt hM]
  push_cast
  simp
  field_simp
/-- The pieces of a string in the source: the leading digit with the point and eleven groups of 100 digits. -/
def pieces (d M : ℕ) : List (List Char) :=
  [[digitChars.getD d '0', '.'], chars 100 (M / 10 ^ 1000), chars 100 (M / 10 ^ 900), chars 100 (M / 10 ^ 800),
    chars 100 (M / 10 ^ 700), chars 100 (M / 10 ^ 600), chars 100 (M / 10 ^ 500), chars 100 (M / 10 ^ 400),
    chars 100 (M / 10 ^ 300), chars 100 (M / 10 ^ 200), chars 100 (M / 10 ^ 100), chars 100 M]

theorem pieces_text (l : List (List Char)) : (l.map String.ofList).flatMap String.toList = l.flatten := by
  induction l with
  | nil => rfl
  | cons a l ih => rw [List.map_cons, List.flatMap_cons, ih, String.toList_ofList, List.flatten_cons]

/-- Digits of `sqrt2` after the point. -/
def sqrt2Num : ℕ :=
  41421356237309504880168872420969807856967187537694807317667973799073247846210703885038753432764157273501384623091229702492483605585073721264412149709993583141322266592750559275579995050115278206057147010955997160597027453459686201472851741864088919860955232923048430871432145083976260362799525140798968725339654633180882964062061525835239505474575028775996172983557522033753185701135437460340849884716038689997069900481503054402779031645424782306849293691862158057846311159666871301301561856898723723528850926486124949771542183342042856860601468247207714358548741556570696776537202264854470158588016207584749226572260020855844665214583988939443709265918003113882464681570826301005948587040031864803421948972782906410450726368813137398552561173220402450912277002269411275736272804957381089675040183698683684507257993647290607629969413804756548237289971803268024744206292691248590521810044598421505911202494413417285314781058036033710773091828693147101711116839165817268894197587165821521282295184884720896946338628915628827659526351405422676532396946175112916024087155101351504553812875600526314680171

set_option maxRecDepth 20000 in
set_option exponentiation.threshold 1200 in
theorem sqrt2Text_eq : Const.sqrt2Text = (decLit 1 1100 sqrt2Num).text := by
  rw [decLit_text]
  exact (pieces_text (pieces 1 sqrt2Num)).trans (by decide +kernel)

/-- Digits of `pi` after the point. -/
def piNum : ℕ :=
  14159265358979323846264338327950288419716939937510582097494459230781640628620899862803482534211706798214808651328230664709384460955058223172535940812848111745028410270193852110555964462294895493038196442881097566593344612847564823378678316527120190914564856692346034861045432664821339360726024914127372458700660631558817488152092096282925409171536436789259036001133053054882046652138414695194151160943305727036575959195309218611738193261179310511854807446237996274956735188575272489122793818301194912983367336244065664308602139494639522473719070217986094370277053921717629317675238467481846766940513200056812714526356082778577134275778960917363717872146844090122495343014654958537105079227968925892354201995611212902196086403441815981362977477130996051870721134999999837297804995105973173281609631859502445945534690830264252230825334468503526193118817101000313783875288658753320838142061717766914730359825349042875546873115956286388235378759375195778185778053217122680661300192787661119590921642019893809525720106548586327886593615338182796823030195203530185296899577362259941389124972177528347913152

set_option maxRecDepth 20000 in
set_option exponentiation.threshold 1200 in
theorem piText_eq : Const.piText = (decLit 3 1100 piNum).text := by
  rw [decLit_text]
  exact (pieces_text (pieces 3 piNum)).trans (by decide +kernel)

/-- Digits of `e` after the point. -/
def eNum : ℕ :=
  71828182845904523536028747135266249775724709369995957496696762772407663035354759457138217852516642742746639193200305992181741359662904357290033429526059563073813232862794349076323382988075319525101901157383418793070215408914993488416750924476146066808226480016847741185374234544243710753907774499206955170276183860626133138458300075204493382656029760673711320070932870912744374704723069697720931014169283681902551510865746377211125238978442505695369677078544996996794686445490598793163688923009879312773617821542499922957635148220826989519366803318252886939849646510582093923982948879332036250944311730123819706841614039701983767932068328237646480429531180232878250981945581530175671736133206981125099618188159304169035159888851934580727386673858942287922849989208680582574927961048419844436346324496848756023362482704197862320900216099023530436994184914631409343173814364054625315209618369088870701676839642437814059271456354906130310720851038375051011574770417189861068739696552126715468895703503540212340784981933432106817012100562788023519303322474501585390473041995777709350366041699732972508869

set_option maxRecDepth 20000 in
set_option exponentiation.threshold 1200 in
theorem eText_eq : Const.eText = (decLit 2 1100 eNum).text := by
  rw [decLit_text]
  exact (pieces_text (pieces 2 eNum)).trans (by decide +kernel)

/-- Digits of `ln2` after the point. -/
def ln2Num : ℕ :=
  69314718055994530941723212145817656807550013436025525412068000949339362196969471560586332699641868754200148102057068573368552023575813055703267075163507596193072757082837143519030703862389167347112335011536449795523912047517268157493206515552473413952588295045300709532636664265410423915781495204374043038550080194417064167151864471283996817178454695702627163106454615025720740248163777338963855069526066834113727387372292895649354702576265209885969320196505855476470330679365443254763274495125040606943814710468994650622016772042452452961268794654619316517468139267250410380254625965686914419287160829380317271436778265487756648508567407764845146443994046142260319309673540257444607030809608504748663852313818167675143866747664789088143714198549423151997354880375165861275352916610007105355824987941472950929311389715599820565439287170007218085761025236889213244971389320378439353088774825970171559107088236836275898425891853530243634214367061189236789192372314672321720534016492568727477823445353476481149418642386776774406069562657379600867076257199184734022651462837904883062033061144630073719489

set_option maxRecDepth 20000 in
set_option exponentiation.threshold 1200 in
theorem ln2Text_eq : Const.ln2Text = (decLit 0 1100 ln2Num).text := by
  rw [decLit_text]
  exact (pieces_text (pieces 0 ln2Num)).trans (by decide +kernel)

/-- Digits of `ln10` after the point. -/
def ln10Num : ℕ :=
  30258509299404568401799145468436420760110148862877297603332790096757260967735248023599720508959829834196778404228624863340952546508280675666628736909878168948290720832555468084379989482623319852839350530896537773262884616336622228769821988674654366747440424327436515504893431493939147961940440022210510171417480036880840126470806855677432162283552201148046637156591213734507478569476834636167921018064450706480002775026849167465505868569356734206705811364292245544057589257242082413146956890167589402567763113569192920333765871416602301057030896345720754403708474699401682692828084811842893148485249486448719278096762712757753970276686059524967166741834857044225071979650047149510504922147765676369386629769795221107182645497347726624257094293225827985025855097852653832076067263171643095059950878075237103331011978575473315414218084275438635917781170543098274823850456480190956102992918243182375253577097505395651876975103749708886921802051893395072385392051446341972652872869651108625714921988499787488737713456862091670584980782805975119385444500997813114691593466624107184669231010759843831919129

set_option maxRecDepth 20000 in
set_option exponentiation.threshold 1200 in
theorem ln10Text_eq : Const.ln10Text = (decLit 2 1100 ln10Num).text := by
  rw [decLit_text]
  exact (pieces_text (pieces 2 ln10Num)).trans (by decide +kernel)

/-- Digits of `eulerGamma` after the point. -/
def eulerGammaNum : ℕ :=
  57721566490153286060651209008240243104215933593992359880576723488486772677766467093694706329174674951463144724980708248096050401448654283622417399764492353625350033374293733773767394279259525824709491600873520394816567085323315177661152862119950150798479374508570574002992135478614669402960432542151905877553526733139925401296742051375413954911168510280798423487758720503843109399736137255306088933126760017247953783675927135157722610273492913940798430103417771778088154957066107501016191663340152278935867965497252036212879226555953669628176388792726801324310104765059637039473949576389065729679296010090151251959509222435014093498712282479497471956469763185066761290638110518241974448678363808617494551698927923018773910729457815543160050021828440960537724342032854783670151773943987003023703395183286900015581939880427074115422278197165230110735658339673487176504919418123000406546931429992977795693031005030863034185698032310836916400258929708909854868257773642882539549258736295961332985747393023734388470703702844129201664178502487333790805627549984345907616431671031467107223700218107450444187

set_option maxRecDepth 20000 in
set_option exponentiation.threshold 1200 in
theorem eulerGammaText_eq : Const.eulerGammaText = (decLit 0 1100 eulerGammaNum).text := by
  rw [decLit_text]
  exact (pieces_text (pieces 0 eulerGammaNum)).trans (by decide +kernel)

/-- Digits of `catalan` after the point. -/
def catalanNum : ℕ :=
  91596559417721901505460351493238411077414937428167213426649811962176301977625476947935651292611510624857442261919619957903589880332585905943159473748115840699533202877331946051903872747816408786590902470648415216300022872764094238825995774150881639747025248201156070764488380787337048990086477511322599713434074854075532307685653357680958352602193823239508007206803557610482357339423191498298361899770690364041808621794110191753274314997823397610551224779530324875371878665828082360570225594194818097535097113157126158042427236364398500173828759779765306837009298087388749561089365977194096872684444166804621624339864838916280448281506273022742073884311722182721904722558705319086857354234985394983099191159673884645086151524996242370437451777372351775440708538464401321748392999947572446199754961975870640074748707014909376788730458699798606448749746438720623851371239273630499850353922392878797906336440323547845358519277777872709060830319943013323167124761587097924554791190921262018548039639342434956537596739494354730014385180705051250748861328564129344959502298722983162894816461622573989476232

set_option maxRecDepth 20000 in
set_option exponentiation.threshold 1200 in
theorem catalanText_eq : Const.catalanText = (decLit 0 1100 catalanNum).text := by
  rw [decLit_text]
  exact (pieces_text (pieces 0 catalanNum)).trans (by decide +kernel)

/-- Digits of `glaisher` after the point. -/
def glaisherNum : ℕ :=
  28242712910062263687534256886979172776768892732500119206374002174040630885882646112973649195820237439420646120399000748933157791362775280404159072573861727522143343271434397873350679152573668569078765611466864499977849627545181743123946527612821380818021926451685154614391990108357373070350490388812341881367497813305093770833682222494115874837348064399978830070125567001286994157705432053927585405817315881554817629703847432504677751473746000316160230466132963429915580958792933634388728870198895346072523318470248900109177694171215356919367496726127039801352652668868978218897401729375840750167472114895288815996668743164513890306962645598704695437402530996068008424474175540614901894441393861960891296821735287986298843422036698990060698088878584958749408530734711709013266756750331052340522105414176776156308191919997185237047761312315374135304725819814797451761027540834943143849652341394533730658323256739549576016922564277369263588216921598707758582746957516284155064858589083412822755620954700291859326307937337694207752229094018708695195737807113096673517703001997619162841026237527268163782

set_option maxRecDepth 20000 in
set_option exponentiation.threshold 1200 in
theorem glaisherText_eq : Const.glaisherText = (decLit 1 1100 glaisherNum).text := by
  rw [decLit_text]
  exact (pieces_text (pieces 1 glaisherNum)).trans (by decide +kernel)

/-- Digits of `khinchin` after the point. -/
def khinchinNum : ℕ :=
  68545200106530644530971483548179569382038229399446295305115234555721885953715200280114117493184769799515346590528809008289767771641096305179253348325966838185231542133211949962603932852204481940961806866416642893084778806203607370535010336726335772890499042707027234517026252370235458106863185010323746558037750264425248528694682341899491573066189872079941372355000579357366989339508790212446420752897414591476930184490506017934993852254704042033779856398310157090222339100002207725096513324604444391916914608596823482128324622829271012690697418234847767545734898625420339266235186208677813665096965831469952718374480540121953666660496482698908275481152547211773303196759473837193935781060592304018907113496246737068412217946810740608918276695667117166837405904739368809534504899970471763904513432323771510321965150382469888832487093539946960826478181205663494671257843666457974097784836620497777486827656970871631929385128993141995186116737926546205635059513857137616971268722998053276732787105137639563719023145289003058136910904799672757571385043565050641590820999623402779053834180985121278529455

set_option maxRecDepth 20000 in
set_option exponentiation.threshold 1200 in
theorem khinchinText_eq : Const.khinchinText = (decLit 2 1100 khinchinNum).text := by
  rw [decLit_text]
  exact (pieces_text (pieces 2 khinchinNum)).trans (by decide +kernel)

/-- Digits of `phi` after the point. -/
def phiNum : ℕ :=
  61803398874989484820458683436563811772030917980576286213544862270526046281890244970720720418939113748475408807538689175212663386222353693179318006076672635443338908659593958290563832266131992829026788067520876689250171169620703222104321626954862629631361443814975870122034080588795445474924618569536486444924104432077134494704956584678850987433944221254487706647809158846074998871240076521705751797883416625624940758906970400028121042762177111777805315317141011704666599146697987317613560067087480710131795236894275219484353056783002287856997829778347845878228911097625003026961561700250464338243776486102838312683303724292675263116533924731671112115881863851331620384005222165791286675294654906811317159934323597349498509040947621322298101726107059611645629909816290555208524790352406020172799747175342777592778625619432082750513121815628551222480939471234145170223735805772786160086883829523045926478780178899219902707769038953219681986151437803149974110692608867429622675756052317277752035361393621076738937645560606059216589466759551900400555908950229530942312482355212212415444006470340565734798

set_option maxRecDepth 20000 in
set_option exponentiation.threshold 1200 in
theorem phiText_eq : Const.phiText = (decLit 1 1100 phiNum).text := by
  rw [decLit_text]
  exact (pieces_text (pieces 1 phiNum)).trans (by decide +kernel)

end EFX
