import Verif.Proofs.Tables
import Verif.Model.Tables.Latin
/-
Generated: kernel evaluation of the whole built-in table latin, chunk by chunk.
-/
namespace Verif.Proofs.LatinTable
open Verif.Go Verif.Model Verif.Proofs Verif.Model.Tables
set_option maxRecDepth 100000

def keys00 : List Nat := [2011850741919270590940866087005810264637440, 2011852738423964354094071300560225768046592, 2011852738424099555522033722228608207945728, 2012022048187232501166269346695050109648896, 2012023043813958079438003444851469696630784, 2012107119103466437054901146565857798782976, 2012194644615176142812893454501807581560832, 2013041695155490080452901405550971231141888, 2013126636650446996830124080408187497349120, 2013126636650461852110595504971486286839808, 2013385166310317238014302928622446352269312, 2013385166313975350830391227334773264351232, 5018588890706698931474704453567014376570880, 5017480317154362740904116492743988733804544, 4888088608472332282240588206105604632084480, 4887662596741017182555003618039593152020480, 10017912882152428364361748442791256145264640, 14765532465433361806602750965679286231498752, 4233894396711495489132131667978523928166400, 4233895061325493381590068119882054068338688, 4233896722860488112734909249640879418769408, 4233897719781484951421813927496174629027840, 4233554114344574550668668293371092159954944, 4233556440493567174271445875033447650557952, 4233557437414564012958350552888742860816384, 4408122291645005444715061726501239953293312, 4582855293216913668329695231706862509359104, 4843680398233817215658498964496252563095552, 4843681062847815108116435416399782703267840, 4843682724382809839261276546158608053698560, 4843683721303806677948181224013903263956992, 5105531002649468825583247984432648902672384, 4268502010656252085684571075624100444504064, 4276838928645815078039423753506178765684736, 4276923999237545312655289597158036707737600, 4277009069829275547271155440809894649790464, 4277689634563117424198082190024758186213376, 4277774705154847658813948033676616128266240, 4277859775746577893429813877328474070319104, 4278200058113498831893277251935905838530560, 4278370199296959301125008939239621722636288, 4278285128705229066509143095587763780583424, 4272415257875842878014399883609565778935808, 4312058153622132209007883025375366775570432, 4320480142203425435978601546909303038803968, 4320905495162076609057930765168592749068288, 4321245777528997547521394139776024517279744, 4321330848120727782137259983427882459332608, 4321415918712458016753125827079740401385472, 4321671130487648720600723358035314227544064, 4321756201079378955216589201687172169596928, 4321841271671109189832455045339030111649792, 4321926342262839424448320888990888053702656, 4322436765813220832143515950902035706019840, 4315971400841723001337711833360832110002176, 4355614296588012332331194975126633106636800, 4364121355761035793917779340312427311923200, 4364376567536226497765376871268001138081792, 4364886991086607905460571933179148790398976, 4365312344045259078539901151438438500663296, 4365397414636989313155766995090296442716160, 4365652626412180017003364526045870268874752, 4359527543807603124661023783112098441068544, 4442726582519772578977818874629165768769536, 4451403782876256509796134927118675858161664, 4451914206426637917491329989029823510478848, 4452084347610098386723061676333539394584576, 4452424629977019325186525050940971162796032, 4452594771160479794418256738244687046901760, 4446639829739363371307647682614631103201280, 4486282725485652702301130824380432099835904, 4495044996433866867735312720521800131280896, 4494789784658676163887715189566226305122304, 4494959925842136633119446876869942189228032, 4495470349392518040814641938781089841545216, 4495555419984248275430507782432947783598080, 4495640490575978510046373626084805725650944, 4495980772942899448509837000692237493862400, 4496065843534629683125702844344095435915264, 4496321055309820386973300375299669262073856, 4490195972705243494630959632365897434267648, 4529838868451532825624442774131698430902272, 4539366774725319102601417263139787940823040, 4539707057092240041064880637747219709034496, 4533752115671123617954271582117163765334016, 4616951154383293072271066673634231093035008, 4660507297349173195594378623385497424101376, 4669609850664308299492023894134297223757824, 4669354638889117595644426363178723397599232, 4704063440315053318917690573136763755167744, 4712400358304616311272543251018842076348416, 4712485428896346545888409094670700018401280, 4712570499488076780504274938322557960454144, 4712740640671537249736006625626273844559872, 4712759914477476131016163730828647909556224, 4712825711263267484351872469278131786612736, 4713165993630188422815335843885563554824192, 4713251064221918657431201687537421496877056, 4713336134813648892047067531189279438929920, 4713421205405379126662933374841137380982784]
theorem ok00 : (∀ l ∈ latin00, lineOk l = true) ∧ keysOf latin00 = keys00 :=
  goodChunk_ok _ _ (by decide +kernel)

def keys01 : List Nat := [4713591346588839595894665062144853265088512, 4713676417180569830510530905796711207141376, 4713761487772300065126396749448569149194240, 4713846558364030299742262593100427091247104, 4713931628955760534358128436752285033299968, 4714101770139221003589860124056000917405696, 4707976687534644111247519381122229089599488, 4747619583280933442241002522888030086234112, 4756892277779529015370379480940545769996288, 4755956501270496434595855200770108407414784, 4757147489554719719217977011896119596154880, 4756807207187798780754513637288687827943424, 4756977348371259249986245324592403712049152, 4757232560146449953833842855547977538207744, 4757317630738180188449708699199835480260608, 4757657913105101126913172073807267248472064, 4751532830500524234570831330873495420665856, 4791175726246813565564314472639296417300480, 4799512644236376557919167150521374738481152, 4799597714828106792535032994173232680534016, 4799682785419837027150898837825090622586880, 4799852926603297496382630525128806506692608, 4799937997195027730998496368780664448745472, 4800363350153678904077825587039954159009792, 4800448420745409138693691430691812101062656, 4800533491337139373309557274343670043115520, 4800703632520599842541288961647385927221248, 4800788703112330077157154805299243869274112, 4800873773704060311773020648951101811326976, 4800958844295790546388886492602959753379840, 4800976955027233115867654806974156073074688, 4800975791952736804066266016142978327773184, 4801043914887520781004752336254817695432704, 4801214056070981250236484023558533579538432, 4801384197254441719468215710862249463644160, 4795088973466404357894143280624761751732224, 4878288012178573812210938372141829079433216, 4887135353718518212260986111935055052931072, 4887475636085439150724449486542486821142528, 4887645777268899619956181173846202705248256, 4887815918452360089187912861149918589353984, 4887986059635820558419644548453634473459712, 4888071130227550793035510392105492415512576, 4888156200819281027651376235757350357565440, 4888666624369662435346571297668498009882624, 4887153962910459201083206765233898977755136, 4887154627524457093541143217137429117927424, 4882201259398164604540767180127294413864960, 4931797414376891385590554029160474630684672, 4965400298110334058857562271644361741565952, 4973737216099897051212414949526440062746624, 4973822286691627285828280793178298004799488, 4973907357283357520444146636830155946852352, 4974077498466817989675878324133871830958080, 4974162569058548224291744167785729773010944, 4974247639650278458907610011437587715063808, 4974587922017199397371073386045019483275264, 4974672992608929631986939229696877425328128, 4974758063200659866602805073348735367380992, 4974928204384120335834536760652451251486720, 4975013274975850570450402604304309193539584, 4975098345567580805066268447956167135592448, 4975183416159311039682134291608025077645312, 4975268486751041274298000135259883019698176, 4975438627934501743529731822563598903803904, 4975778910301422681993195197171030672015360, 4969313545329924851187391079629827075997696, 5008956441076214182180874221395628072632320, 5018501627313945663064196459895501227032576, 5018739559125191163005446241359291408711680, 5018840912759869762840755156647637784985600, 5018841078913369235955239269623520320028672, 5018841245066868709069723382599402855071744, 5018841577373867655298691608551167925157888, 5018841743527367128413175721527050460200960, 5018842574294864493985596286406463135416320, 5018842740448363967100080399382345670459392, 5018842906601863440214564512358228205502464, 5018843238908862386443532738309993275588608, 5018843405062361859558016851285875810631680, 5018843737369360805786985077237640880717824, 5018843903522860278901469190213523415760896, 5018844235829859225130437416165288485847040, 5012869688295804974510703029381093407064064, 5018832272777897160887581281901745962745856, 5052512584042094305504186171146894403698688, 5060849502031657297859038849028972724879360, 5060934572623387532474904692680830666932224, 5061019643215117767090770536332688608985088, 5061189784398578236322502223636404493090816, 5061274854990308470938368067288262435143680, 5061359925582038705554233910940120377196544, 5061700207948959644017697285547552145408000, 5062210631499341051712892347458699797725184, 5061785278540689878633563129199410087460864, 5061870349132420113249428972851268029513728, 5062040490315880582481160660154983913619456, 5062125560907610817097026503806841855672320, 5062380772682801520944624034762415681830912, 5062550913866261990176355722066131565936640]
theorem ok01 : (∀ l ∈ latin01, lineOk l = true) ∧ keysOf latin01 = keys01 :=
  goodChunk_ok _ _ (by decide +kernel)

def keys02 : List Nat := [5056425831261685097834014979132359738130432, 5139624869973854552150810070649427065831424, 5148812493880719890664321185050084807540736, 5149322917431101298359516246961232459857920, 5149663199798022236822979621568664228069376, 5226737155905614798797433970151959727964160, 5236605344546322014237871833767481006096384, 5236945626913242952701335208374912774307840, 5230650403125205591127262778137425062395904, 5313849441837375045444057869654492390096896, 5317762689056965837773886677639957724528640, 4234915243812258304522521791800819232800768, 4234915908426256196980458243704349372973056, 4234916573040254089438394695607879513145344, 4234917569961250928125299373463174723403776, 4234918566882247766812204051318469933662208, 4409139815675778797815769590805884557066240, 4409140480289776690273706042709414697238528, 4409141144903774582731642494612944837410816, 4409142141824771421418547172468240047669248, 4409143138745768260105451850323535257927680, 4583364387539299291109017389810949881331712, 4583365052153297183566953841714480021504000, 4583365716767295076024890293618010161676288, 4583366713688291914711794971473305371934720, 4583367710609288753398699649328600582193152, 4844701245334580031048889088318547867729920, 4844701909948577923506825540222078007902208, 4844702574562575815964761992125608148074496, 4844703571483572654651666669980903358332928, 4844704568404569493338571347836198568591360, 5106038103129860770988760786826145854128128, 5106038767743858663446697238729675994300416, 5106039432357856555904633690633206134472704, 5106040429278853394591538368488501344731136, 5106041426199850233278443046343796554989568, 4234152963034975360136803956417882451083264, 4234152964333049574770510863550506533388288, 4234152965631123789404217770683130615693312, 4234152967578235111354778131382066739150848, 4234152969525346433305338492081002862608384, 4408377534898495853430051755422947775348736, 4408377536196570068063758662555571857653760, 4408377537494644282697465569688195939958784, 4408377539441755604648025930387132063416320, 4408377541388866926598586291086068186873856, 4582602106762016346723299554428013099614208, 4582602108060090561357006461560637181919232, 4582602109358164775990713368693261264224256, 4582602111305276097941273729392197387681792, 4582602113252387419891834090091133511139328, 4843938964557297086663171252935611086012416, 4843938965855371301296878160068235168317440, 4843938967153445515930585067200859250622464, 4843938969100556837881145427899795374080000, 4843938971047668159831705788598731497537536, 5105275822352577826603042951443209072410624, 5105275823650652041236749858575833154715648, 5105275824948726255870456765708457237020672, 5105275826895837577821017126407393360478208, 5105275828842948899771577487106329483935744, 4234238033626705594752669800069740393136128, 4234238034924779809386376707202364475441152, 4234238036222854024020083614334988557746176, 4234238038169965345970643975033924681203712, 4234238040117076667921204335732860804661248, 4408462605490226088045917599074805717401600, 4408462606788300302679624506207429799706624, 4408462608086374517313331413340053882011648, 4408462610033485839263891774038990005469184, 4408462611980597161214452134737926128926720, 4582687177353746581339165398079871041667072, 4582687178651820795972872305212495123972096, 4582687179949895010606579212345119206277120, 4582687181897006332557139573044055329734656, 4582687183844117654507699933742991453192192, 4844024035149027321279037096587469028065280, 4844024036447101535912744003720093110370304, 4844024037745175750546450910852717192675328, 4844024039692287072497011271551653316132864, 4844024041639398394447571632250589439590400, 5105360892944308061218908795095067014463488, 5105360894242382275852615702227691096768512, 5105360895540456490486322609360315179073536, 5105360897487567812436882970059251302531072, 5105360899434679134387443330758187425988608, 4234323104218435829368535643721598335188992, 4234323105516510044002242550854222417494016, 4234323106814584258635949457986846499799040, 4234323108761695580586509818685782623256576, 4234323110708806902537070179384718746714112, 4408547676081956322661783442726663659454464, 4408547677380030537295490349859287741759488, 4408547678678104751929197256991911824064512, 4408547680625216073879757617690847947522048, 4408547682572327395830317978389784070979584, 4582772247945476815955031241731728983719936, 4582772249243551030588738148864353066024960, 4582772250541625245222445055996977148329984, 4582772252488736567173005416695913271787520]
theorem ok02 : (∀ l ∈ latin02, lineOk l = true) ∧ keysOf latin02 = keys02 :=
  goodChunk_ok _ _ (by decide +kernel)

def keys03 : List Nat := [4582772254435847889123565777394849395245056, 4844109105740757555894902940239326970118144, 4844109107038831770528609847371951052423168, 4844109108336905985162316754504575134728192, 4844109110284017307112877115203511258185728, 4844109112231128629063437475902447381643264, 5105445963536038295834774638746924956516352, 5105445964834112510468481545879549038821376, 5105445966132186725102188453012173121126400, 5105445968079298047052748813711109244583936, 5105445970026409369003309174410045368041472, 4234663386585356767831999018329030103400448, 4234663387883430982465705925461654185705472, 4234663389181505197099412832594278268010496, 4234663391128616519049973193293214391468032, 4234663393075727841000533553992150514925568, 4408887958448877261125246817334095427665920, 4408887959746951475758953724466719509970944, 4408887961045025690392660631599343592275968, 4408887962992137012343220992298279715733504, 4408887964939248334293781352997215839191040, 4583112530312397754418494616339160751931392, 4583112531610471969052201523471784834236416, 4583112532908546183685908430604408916541440, 4583112534855657505636468791303345039998976, 4583112536802768827587029152002281163456512, 4844449388107678494358366314846758738329600, 4844449389405752708992073221979382820634624, 4844449390703826923625780129112006902939648, 4844449392650938245576340489810943026397184, 4844449394598049567526900850509879149854720, 5105786245902959234298238013354356724727808, 5105786247201033448931944920486980807032832, 5105786248499107663565651827619604889337856, 5105786250446218985516212188318541012795392, 5105786252393330307466772549017477136252928]
theorem ok03 : (∀ l ∈ latin03, lineOk l = true) ∧ keysOf latin03 = keys03 :=
  goodChunk_ok _ _ (by decide +kernel)

def keyChunks : List (List Nat) := [keys00, keys01, keys02, keys03]
theorem allOk : ∀ l ∈ latinLines, lineOk l = true := by
  simp only [latinLines, latinChunks, List.flatten_cons, List.flatten_nil, List.mem_append, List.not_mem_nil, or_false]
  intro l hl
  rcases hl with h | h | h | h
  · exact ok00.1 l h
  · exact ok01.1 l h
  · exact ok02.1 l h
  · exact ok03.1 l h

theorem keysEq : keysOf latinLines = keyChunks.flatten := by
  have happ : ∀ a b : List Str, keysOf (a ++ b) = keysOf a ++ keysOf b := by intro a b; simp [keysOf]
  have hnil : keysOf [] = [] := rfl
  simp only [latinLines, latinChunks, keyChunks, List.flatten_cons, List.flatten_nil, happ, hnil, ok00.2, ok01.2, ok02.2, ok03.2]

def t0 : KT := (.node (.node (.node (.node (.node (.node (.node .leaf 2011850741919270590940866087005810264637440 0 .leaf) 2011852738423964354094071300560225768046592 1 .leaf) 2011852738424099555522033722228608207945728 2 (.node (.node .leaf 2012022048187232501166269346695050109648896 3 .leaf) 2012023043813958079438003444851469696630784 4 .leaf)) 2012107119103466437054901146565857798782976 5 (.node (.node (.node .leaf 2012194644615176142812893454501807581560832 6 .leaf) 2013041695155490080452901405550971231141888 7 .leaf) 2013126636650446996830124080408187497349120 8 (.node .leaf 2013126636650461852110595504971486286839808 9 .leaf))) 2013385166310317238014302928622446352269312 10 (.node (.node (.node (.node .leaf 2013385166313975350830391227334773264351232 11 .leaf) 4233554114344574550668668293371092159954944 22 .leaf) 4233556440493567174271445875033447650557952 23 (.node (.node .leaf 4233557437414564012958350552888742860816384 24 .leaf) 4233894396711495489132131667978523928166400 18 .leaf)) 4233895061325493381590068119882054068338688 19 (.node (.node (.node .leaf 4233896722860488112734909249640879418769408 20 .leaf) 4233897719781484951421813927496174629027840 21 .leaf) 4234152963034975360136803956417882451083264 236 (.node .leaf 4234152964333049574770510863550506533388288 237 .leaf)))) 4234152965631123789404217770683130615693312 238 (.node (.node (.node (.node (.node .leaf 4234152967578235111354778131382066739150848 239 .leaf) 4234152969525346433305338492081002862608384 240 .leaf) 4234238033626705594752669800069740393136128 261 (.node (.node .leaf 4234238034924779809386376707202364475441152 262 .leaf) 4234238036222854024020083614334988557746176 263 .leaf)) 4234238038169965345970643975033924681203712 264 (.node (.node (.node .leaf 4234238040117076667921204335732860804661248 265 .leaf) 4234323104218435829368535643721598335188992 286 .leaf) 4234323105516510044002242550854222417494016 287 (.node .leaf 4234323106814584258635949457986846499799040 288 .leaf))) 4234323108761695580586509818685782623256576 289 (.node (.node (.node (.node .leaf 4234323110708806902537070179384718746714112 290 .leaf) 4234663386585356767831999018329030103400448 311 .leaf) 4234663387883430982465705925461654185705472 312 (.node .leaf 4234663389181505197099412832594278268010496 313 .leaf)) 4234663391128616519049973193293214391468032 314 (.node (.node (.node .leaf 4234663393075727841000533553992150514925568 315 .leaf) 4234915243812258304522521791800819232800768 211 .leaf) 4234915908426256196980458243704349372973056 212 (.node .leaf 4234916573040254089438394695607879513145344 213 .leaf))))) 4234917569961250928125299373463174723403776 214 (.node (.node (.node (.node (.node (.node .leaf 4234918566882247766812204051318469933662208 215 .leaf) 4268502010656252085684571075624100444504064 32 .leaf) 4272415257875842878014399883609565778935808 42 (.node (.node .leaf 4276838928645815078039423753506178765684736 33 .leaf) 4276923999237545312655289597158036707737600 34 .leaf)) 4277009069829275547271155440809894649790464 35 (.node (.node (.node .leaf 4277689634563117424198082190024758186213376 36 .leaf) 4277774705154847658813948033676616128266240 37 .leaf) 4277859775746577893429813877328474070319104 38 (.node .leaf 4278200058113498831893277251935905838530560 39 .leaf))) 4278285128705229066509143095587763780583424 41 (.node (.node (.node (.node .leaf 4278370199296959301125008939239621722636288 40 .leaf) 4312058153622132209007883025375366775570432 43 .leaf) 4315971400841723001337711833360832110002176 54 (.node .leaf 4320480142203425435978601546909303038803968 44 .leaf)) 4320905495162076609057930765168592749068288 45 (.node (.node (.node .leaf 4321245777528997547521394139776024517279744 46 .leaf) 4321330848120727782137259983427882459332608 47 .leaf) 4321415918712458016753125827079740401385472 48 (.node .leaf 4321671130487648720600723358035314227544064 49 .leaf)))) 4321756201079378955216589201687172169596928 50 (.node (.node (.node (.node (.node .leaf 4321841271671109189832455045339030111649792 51 .leaf) 4321926342262839424448320888990888053702656 52 .leaf) 4322436765813220832143515950902035706019840 53 (.node (.node .leaf 4355614296588012332331194975126633106636800 55 .leaf) 4359527543807603124661023783112098441068544 62 .leaf)) 4364121355761035793917779340312427311923200 56 (.node (.node (.node .leaf 4364376567536226497765376871268001138081792 57 .leaf) 4364886991086607905460571933179148790398976 58 .leaf) 4365312344045259078539901151438438500663296 59 (.node .leaf 4365397414636989313155766995090296442716160 60 .leaf))) 4365652626412180017003364526045870268874752 61 (.node (.node (.node (.node .leaf 4408122291645005444715061726501239953293312 25 .leaf) 4408377534898495853430051755422947775348736 241 .leaf) 4408377536196570068063758662555571857653760 242 (.node .leaf 4408377537494644282697465569688195939958784 243 .leaf)) 4408377539441755604648025930387132063416320 244 (.node (.node (.node .leaf 4408377541388866926598586291086068186873856 245 .leaf) 4408462605490226088045917599074805717401600 266 .leaf) 4408462606788300302679624506207429799706624 267 (.node .leaf 4408462608086374517313331413340053882011648 268 .leaf))))))
def t1 : KT := (.node (.node (.node (.node (.node (.node (.node .leaf 4408462611980597161214452134737926128926720 270 .leaf) 4408547676081956322661783442726663659454464 291 .leaf) 4408547677380030537295490349859287741759488 292 (.node (.node .leaf 4408547678678104751929197256991911824064512 293 .leaf) 4408547680625216073879757617690847947522048 294 .leaf)) 4408547682572327395830317978389784070979584 295 (.node (.node (.node .leaf 4408887958448877261125246817334095427665920 316 .leaf) 4408887959746951475758953724466719509970944 317 .leaf) 4408887961045025690392660631599343592275968 318 (.node .leaf 4408887962992137012343220992298279715733504 319 .leaf))) 4408887964939248334293781352997215839191040 320 (.node (.node (.node (.node .leaf 4409139815675778797815769590805884557066240 216 .leaf) 4409140480289776690273706042709414697238528 217 .leaf) 4409141144903774582731642494612944837410816 218 (.node .leaf 4409142141824771421418547172468240047669248 219 .leaf)) 4409143138745768260105451850323535257927680 220 (.node (.node (.node .leaf 4442726582519772578977818874629165768769536 63 .leaf) 4446639829739363371307647682614631103201280 69 .leaf) 4451403782876256509796134927118675858161664 64 (.node .leaf 4451914206426637917491329989029823510478848 65 .leaf)))) 4452084347610098386723061676333539394584576 66 (.node (.node (.node (.node (.node .leaf 4452424629977019325186525050940971162796032 67 .leaf) 4452594771160479794418256738244687046901760 68 .leaf) 4486282725485652702301130824380432099835904 70 (.node (.node .leaf 4490195972705243494630959632365897434267648 80 .leaf) 4494789784658676163887715189566226305122304 72 .leaf)) 4494959925842136633119446876869942189228032 73 (.node (.node (.node .leaf 4495044996433866867735312720521800131280896 71 .leaf) 4495470349392518040814641938781089841545216 74 .leaf) 4495555419984248275430507782432947783598080 75 (.node .leaf 4495640490575978510046373626084805725650944 76 .leaf))) 4495980772942899448509837000692237493862400 77 (.node (.node (.node (.node .leaf 4496065843534629683125702844344095435915264 78 .leaf) 4496321055309820386973300375299669262073856 79 .leaf) 4529838868451532825624442774131698430902272 81 (.node .leaf 4533752115671123617954271582117163765334016 84 .leaf)) 4539366774725319102601417263139787940823040 82 (.node (.node (.node .leaf 4539707057092240041064880637747219709034496 83 .leaf) 4582602106762016346723299554428013099614208 246 .leaf) 4582602108060090561357006461560637181919232 247 (.node .leaf 4582602109358164775990713368693261264224256 248 .leaf))))) 4582602111305276097941273729392197387681792 249 (.node (.node (.node (.node (.node (.node .leaf 4582602113252387419891834090091133511139328 250 .leaf) 4582687177353746581339165398079871041667072 271 .leaf) 4582687178651820795972872305212495123972096 272 (.node (.node .leaf 4582687179949895010606579212345119206277120 273 .leaf) 4582687181897006332557139573044055329734656 274 .leaf)) 4582687183844117654507699933742991453192192 275 (.node (.node (.node .leaf 4582772247945476815955031241731728983719936 296 .leaf) 4582772249243551030588738148864353066024960 297 .leaf) 4582772250541625245222445055996977148329984 298 (.node .leaf 4582772252488736567173005416695913271787520 299 .leaf))) 4582772254435847889123565777394849395245056 300 (.node (.node (.node (.node .leaf 4582855293216913668329695231706862509359104 26 .leaf) 4583112530312397754418494616339160751931392 321 .leaf) 4583112531610471969052201523471784834236416 322 (.node .leaf 4583112532908546183685908430604408916541440 323 .leaf)) 4583112534855657505636468791303345039998976 324 (.node (.node (.node .leaf 4583112536802768827587029152002281163456512 325 .leaf) 4583364387539299291109017389810949881331712 221 .leaf) 4583365052153297183566953841714480021504000 222 (.node .leaf 4583365716767295076024890293618010161676288 223 .leaf)))) 4583366713688291914711794971473305371934720 224 (.node (.node (.node (.node (.node .leaf 4583367710609288753398699649328600582193152 225 .leaf) 4616951154383293072271066673634231093035008 85 .leaf) 4660507297349173195594378623385497424101376 86 (.node (.node .leaf 4669354638889117595644426363178723397599232 88 .leaf) 4669609850664308299492023894134297223757824 87 .leaf)) 4704063440315053318917690573136763755167744 89 (.node (.node (.node .leaf 4707976687534644111247519381122229089599488 106 .leaf) 4712400358304616311272543251018842076348416 90 .leaf) 4712485428896346545888409094670700018401280 91 (.node .leaf 4712570499488076780504274938322557960454144 92 .leaf))) 4712740640671537249736006625626273844559872 93 (.node (.node (.node (.node .leaf 4712759914477476131016163730828647909556224 94 .leaf) 4712825711263267484351872469278131786612736 95 .leaf) 4713165993630188422815335843885563554824192 96 (.node .leaf 4713251064221918657431201687537421496877056 97 .leaf)) 4713336134813648892047067531189279438929920 98 (.node (.node (.node .leaf 4713421205405379126662933374841137380982784 99 .leaf) 4713591346588839595894665062144853265088512 100 .leaf) 4713676417180569830510530905796711207141376 101 (.node .leaf 4713761487772300065126396749448569149194240 102 .leaf))))))
def t2 : KT := (.node t0 4408462610033485839263891774038990005469184 269 t1)
def t3 : KT := (.node (.node (.node (.node (.node (.node (.node .leaf 4713931628955760534358128436752285033299968 104 .leaf) 4714101770139221003589860124056000917405696 105 .leaf) 4747619583280933442241002522888030086234112 107 (.node (.node .leaf 4751532830500524234570831330873495420665856 116 .leaf) 4755956501270496434595855200770108407414784 109 .leaf)) 4756807207187798780754513637288687827943424 111 (.node (.node (.node .leaf 4756892277779529015370379480940545769996288 108 .leaf) 4756977348371259249986245324592403712049152 112 .leaf) 4757147489554719719217977011896119596154880 110 (.node .leaf 4757232560146449953833842855547977538207744 113 .leaf))) 4757317630738180188449708699199835480260608 114 (.node (.node (.node (.node .leaf 4757657913105101126913172073807267248472064 115 .leaf) 4791175726246813565564314472639296417300480 117 .leaf) 4795088973466404357894143280624761751732224 135 (.node .leaf 4799512644236376557919167150521374738481152 118 .leaf)) 4799597714828106792535032994173232680534016 119 (.node (.node (.node .leaf 4799682785419837027150898837825090622586880 120 .leaf) 4799852926603297496382630525128806506692608 121 .leaf) 4799937997195027730998496368780664448745472 122 (.node .leaf 4800363350153678904077825587039954159009792 123 .leaf)))) 4800448420745409138693691430691812101062656 124 (.node (.node (.node (.node (.node .leaf 4800533491337139373309557274343670043115520 125 .leaf) 4800703632520599842541288961647385927221248 126 .leaf) 4800788703112330077157154805299243869274112 127 (.node (.node .leaf 4800873773704060311773020648951101811326976 128 .leaf) 4800958844295790546388886492602959753379840 129 .leaf)) 4800975791952736804066266016142978327773184 131 (.node (.node (.node .leaf 4800976955027233115867654806974156073074688 130 .leaf) 4801043914887520781004752336254817695432704 132 .leaf) 4801214056070981250236484023558533579538432 133 (.node .leaf 4801384197254441719468215710862249463644160 134 .leaf))) 4843680398233817215658498964496252563095552 27 (.node (.node (.node (.node .leaf 4843681062847815108116435416399782703267840 28 .leaf) 4843682724382809839261276546158608053698560 29 .leaf) 4843683721303806677948181224013903263956992 30 (.node .leaf 4843938964557297086663171252935611086012416 251 .leaf)) 4843938965855371301296878160068235168317440 252 (.node (.node (.node .leaf 4843938967153445515930585067200859250622464 253 .leaf) 4843938969100556837881145427899795374080000 254 .leaf) 4843938971047668159831705788598731497537536 255 (.node .leaf 4844024035149027321279037096587469028065280 276 .leaf))))) 4844024036447101535912744003720093110370304 277 (.node (.node (.node (.node (.node (.node .leaf 4844024037745175750546450910852717192675328 278 .leaf) 4844024039692287072497011271551653316132864 279 .leaf) 4844024041639398394447571632250589439590400 280 (.node (.node .leaf 4844109105740757555894902940239326970118144 301 .leaf) 4844109107038831770528609847371951052423168 302 .leaf)) 4844109108336905985162316754504575134728192 303 (.node (.node (.node .leaf 4844109110284017307112877115203511258185728 304 .leaf) 4844109112231128629063437475902447381643264 305 .leaf) 4844449388107678494358366314846758738329600 326 (.node .leaf 4844449389405752708992073221979382820634624 327 .leaf))) 4844449390703826923625780129112006902939648 328 (.node (.node (.node (.node .leaf 4844449392650938245576340489810943026397184 329 .leaf) 4844449394598049567526900850509879149854720 330 .leaf) 4844701245334580031048889088318547867729920 226 (.node .leaf 4844701909948577923506825540222078007902208 227 .leaf)) 4844702574562575815964761992125608148074496 228 (.node (.node (.node .leaf 4844703571483572654651666669980903358332928 229 .leaf) 4844704568404569493338571347836198568591360 230 .leaf) 4878288012178573812210938372141829079433216 136 (.node .leaf 4882201259398164604540767180127294413864960 147 .leaf)))) 4887135353718518212260986111935055052931072 137 (.node (.node (.node (.node (.node .leaf 4887153962910459201083206765233898977755136 145 .leaf) 4887154627524457093541143217137429117927424 146 .leaf) 4887475636085439150724449486542486821142528 138 (.node (.node .leaf 4887645777268899619956181173846202705248256 139 .leaf) 4887662596741017182555003618039593152020480 15 .leaf)) 4887815918452360089187912861149918589353984 140 (.node (.node (.node .leaf 4887986059635820558419644548453634473459712 141 .leaf) 4888071130227550793035510392105492415512576 142 .leaf) 4888088608472332282240588206105604632084480 14 (.node .leaf 4888156200819281027651376235757350357565440 143 .leaf))) 4888666624369662435346571297668498009882624 144 (.node (.node (.node (.node .leaf 4931797414376891385590554029160474630684672 148 .leaf) 4965400298110334058857562271644361741565952 149 .leaf) 4969313545329924851187391079629827075997696 166 (.node .leaf 4973737216099897051212414949526440062746624 150 .leaf)) 4973822286691627285828280793178298004799488 151 (.node (.node (.node .leaf 4973907357283357520444146636830155946852352 152 .leaf) 4974077498466817989675878324133871830958080 153 .leaf) 4974162569058548224291744167785729773010944 154 (.node .leaf 4974247639650278458907610011437587715063808 155 .leaf))))))
def t4 : KT := (.node (.node (.node (.node (.node (.node (.node .leaf 4974672992608929631986939229696877425328128 157 .leaf) 4974758063200659866602805073348735367380992 158 .leaf) 4974928204384120335834536760652451251486720 159 (.node (.node .leaf 4975013274975850570450402604304309193539584 160 .leaf) 4975098345567580805066268447956167135592448 161 .leaf)) 4975183416159311039682134291608025077645312 162 (.node (.node (.node .leaf 4975268486751041274298000135259883019698176 163 .leaf) 4975438627934501743529731822563598903803904 164 .leaf) 4975778910301422681993195197171030672015360 165 (.node .leaf 5008956441076214182180874221395628072632320 167 .leaf))) 5012869688295804974510703029381093407064064 183 (.node (.node (.node (.node .leaf 5017480317154362740904116492743988733804544 13 .leaf) 5018501627313945663064196459895501227032576 168 .leaf) 5018588890706698931474704453567014376570880 12 (.node .leaf 5018739559125191163005446241359291408711680 169 .leaf)) 5018832272777897160887581281901745962745856 184 (.node (.node (.node .leaf 5018840912759869762840755156647637784985600 170 .leaf) 5018841078913369235955239269623520320028672 171 .leaf) 5018841245066868709069723382599402855071744 172 (.node .leaf 5018841577373867655298691608551167925157888 173 .leaf)))) 5018841743527367128413175721527050460200960 174 (.node (.node (.node (.node (.node .leaf 5018842574294864493985596286406463135416320 175 .leaf) 5018842740448363967100080399382345670459392 176 .leaf) 5018842906601863440214564512358228205502464 177 (.node (.node .leaf 5018843238908862386443532738309993275588608 178 .leaf) 5018843405062361859558016851285875810631680 179 .leaf)) 5018843737369360805786985077237640880717824 180 (.node (.node (.node .leaf 5018843903522860278901469190213523415760896 181 .leaf) 5018844235829859225130437416165288485847040 182 .leaf) 5052512584042094305504186171146894403698688 185 (.node .leaf 5056425831261685097834014979132359738130432 200 .leaf))) 5060849502031657297859038849028972724879360 186 (.node (.node (.node (.node .leaf 5060934572623387532474904692680830666932224 187 .leaf) 5061019643215117767090770536332688608985088 188 .leaf) 5061189784398578236322502223636404493090816 189 (.node .leaf 5061274854990308470938368067288262435143680 190 .leaf)) 5061359925582038705554233910940120377196544 191 (.node (.node (.node .leaf 5061700207948959644017697285547552145408000 192 .leaf) 5061785278540689878633563129199410087460864 194 .leaf) 5061870349132420113249428972851268029513728 195 (.node .leaf 5062040490315880582481160660154983913619456 196 .leaf))))) 5062125560907610817097026503806841855672320 197 (.node (.node (.node (.node (.node (.node .leaf 5062210631499341051712892347458699797725184 193 .leaf) 5062380772682801520944624034762415681830912 198 .leaf) 5062550913866261990176355722066131565936640 199 (.node (.node .leaf 5105275822352577826603042951443209072410624 256 .leaf) 5105275823650652041236749858575833154715648 257 .leaf)) 5105275824948726255870456765708457237020672 258 (.node (.node (.node .leaf 5105275826895837577821017126407393360478208 259 .leaf) 5105275828842948899771577487106329483935744 260 .leaf) 5105360892944308061218908795095067014463488 281 (.node .leaf 5105360894242382275852615702227691096768512 282 .leaf))) 5105360895540456490486322609360315179073536 283 (.node (.node (.node (.node .leaf 5105360897487567812436882970059251302531072 284 .leaf) 5105360899434679134387443330758187425988608 285 .leaf) 5105445963536038295834774638746924956516352 306 (.node .leaf 5105445964834112510468481545879549038821376 307 .leaf)) 5105445966132186725102188453012173121126400 308 (.node (.node (.node .leaf 5105445968079298047052748813711109244583936 309 .leaf) 5105445970026409369003309174410045368041472 310 .leaf) 5105531002649468825583247984432648902672384 31 (.node .leaf 5105786245902959234298238013354356724727808 331 .leaf)))) 5105786247201033448931944920486980807032832 332 (.node (.node (.node (.node (.node .leaf 5105786248499107663565651827619604889337856 333 .leaf) 5105786250446218985516212188318541012795392 334 .leaf) 5105786252393330307466772549017477136252928 335 (.node (.node .leaf 5106038103129860770988760786826145854128128 231 .leaf) 5106038767743858663446697238729675994300416 232 .leaf)) 5106039432357856555904633690633206134472704 233 (.node (.node (.node .leaf 5106040429278853394591538368488501344731136 234 .leaf) 5106041426199850233278443046343796554989568 235 .leaf) 5139624869973854552150810070649427065831424 201 (.node .leaf 5148812493880719890664321185050084807540736 202 .leaf))) 5149322917431101298359516246961232459857920 203 (.node (.node (.node (.node .leaf 5149663199798022236822979621568664228069376 204 .leaf) 5226737155905614798797433970151959727964160 205 .leaf) 5230650403125205591127262778137425062395904 208 (.node .leaf 5236605344546322014237871833767481006096384 206 .leaf)) 5236945626913242952701335208374912774307840 207 (.node (.node (.node .leaf 5313849441837375045444057869654492390096896 209 .leaf) 5317762689056965837773886677639957724528640 210 .leaf) 10017912882152428364361748442791256145264640 16 (.node .leaf 14765532465433361806602750965679286231498752 17 .leaf))))))
def t5 : KT := (.node t3 4974587922017199397371073386045019483275264 156 t4)
def t6 : KT := (.node t2 4713846558364030299742262593100427091247104 103 t5)

theorem idx00 : idxOk t6 0 keys00 = true := by decide +kernel
theorem idx01 : idxOk t6 100 keys01 = true := by decide +kernel
theorem idx02 : idxOk t6 200 keys02 = true := by decide +kernel
theorem idx03 : idxOk t6 300 keys03 = true := by decide +kernel
/-- The certificate tree. -/
def tree : KT := t6
theorem idxAll : idxOk tree 0 (keysOf latinLines) = true := by
  rw [keysEq]
  simp only [keyChunks, List.flatten_cons, List.flatten_nil, List.append_nil]
  refine idxOk_append _ _ _ _ idx00 ?_
  refine idxOk_append _ _ _ _ idx01 ?_
  refine idxOk_append _ _ _ _ idx02 ?_
  exact idx03

theorem keysNodup : (keysOf latinLines).Nodup := (idxOk_spec _ _ _ idxAll).2

end Verif.Proofs.LatinTable
