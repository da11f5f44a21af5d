import Verif.Proofs.Tables
import Verif.Model.Tables.EnUs
/-
Generated: kernel evaluation of the whole built-in table en-us, chunk by chunk.
-/
namespace Verif.Proofs.EnUsTable
open Verif.Go Verif.Model Verif.Proofs Verif.Model.Tables
set_option maxRecDepth 100000

def keys00 : List Nat := [2011850906774695849421643292849068717375488, 2011851071694278588378424616819249182146560, 2011851409129416912666216353174588569419776, 2011852406050413751353121031029883779678208, 2011852566111584439770734640412610709684224, 2011852732840597285388834901667996499968000, 2011852734138671500022541808800620582273024, 2011852734856795565051833764748502948118528, 2011852738357412697582089256981648849764352, 2011852738421429052893614841757232361635840, 2011852738424106717198589119291839167332352, 2011853402646892036381598982102022969360384, 2011853403038087278495975575871520719765504, 2011853403048103451353833587675729533861888, 2011853563608094650961255466547409175183360, 2011853567826835848520802914728437442674688, 2011853568800391509496083095077905504403456, 2011853569189067543630513939987983537012736, 2011853733724903725689298803302734281834496, 2011853896239612150848650419282330265845760, 2011854064015704392255268166173992903770112, 2011854231791796633661885913065655541694464, 2011935644734908584150114183766005568765952, 2011935647068019513870170397220687818260480, 2011935648693147583362760489939461327552512, 2011936312918610566850744630284251935277056, 2011936312980091620961813756256842040737792, 2011936313312216078221609859448978280546304, 2011936313316790266666769339564730544553984, 2011938469993436734413197557922320705650688, 2011938972097292962516706161680357731074048, 2012020717344863606273289058008379825324032, 2012020717661017399086264470274042463518720, 2012020718308908173926739661705797915639808, 2012020718966831214845583574885335870472192, 2012020719545380016325527475598891778310144, 2012021381624710533627119239209763859333120, 2012021844975724103749415959583971136765952, 2012021879118759321695211599637991064076288, 2012022011129223576863900072559853671809024, 2012022048845631885454409455291264141361152, 2012023040826594335051904155513906960269312, 2012023045045335532611451603694935227760640, 2012023045115181623203058916320470548611072, 2012106452549962859807134380384119152443392, 2012106453128515375107196137238499757654016, 2012106454163552090193545443560557924843520, 2012106454168622692594458361166544737665024, 2012106454489338294452200399745210648625152, 2012107113921944610562906092407507629637632, 2012108116286102874544170900913105210966016, 2012109107690284301037821223454748071428096, 2012109110997584717033271731959646734254080, 2012190860153455858817728694171693916094464, 2012190860470873588410814479698028560121856, 2012190989238187734294242969032391810613248, 2012191524693801270698342161239825761435648, 2012191820005685099866663533911804485828608, 2012192683225037831281756777106819218669568, 2012192683618643342652622006271545563938816, 2012193014627568074247883325090686551719936, 2012193016505592438486005183408052350484480, 2012193020399815082387125904805924597399552, 2012193519576045866603970844990349460373504, 2012193684755846077698617673504875635277824, 2012193813847678777240472889622394906345472, 2012194146154677723469441115574159976431616, 2012194843545049535428476972576448194805760, 2012276595610050058972634731674839724064768, 2012278256889738501750542332575296023166976, 2012360964268148730411490543360225159675904, 2012361628882146622869426995263755299848192, 2012361664652711260109604246697726349148160, 2012361664968990084866547482371153798889472, 2012362324974444220194755945133419435917312, 2012362325298962773853182671916575456493568, 2012363327412256471074914978302366995972096, 2012446070620432381169832768162944933429248, 2012446070624739174566506606139318986604544, 2012446699473876857485292838915613241901056, 2012446736539476566562731388907331023536128, 2012446736793510528204366418978555608170496, 2012446737118029081862793145761711628746752, 2012447395890693008469048515568433398546432, 2012447396936504753657337771803213542981632, 2012448396770078637113353030610447161622528, 2012448396776267099369740646604667883618304, 2012448399302060920324487729086849020329984, 2012531638960111414096761062172438871146496, 2012531640002120207484365630202728905965568, 2012533134666125225785544805738537707110400, 2012533135706368716677128421496821590786048, 2012533265447102350131515699350413999341568, 2012533297640990818827743694461436954673152, 2012533298223476269632615104449172077543424, 2012533300170587591583175465148108201000960, 2012533302766736020850589279413356365611008, 2012533967056215359650099004533730485207040, 2012534130289047849838742576461208835063808, 2012619536108444013609417187113236032389120]
theorem ok00 : (∀ l ∈ enUs00, lineOk l = true) ∧ keysOf enUs00 = keys00 :=
  goodChunk_ok _ _ (by decide +kernel)

def keys01 : List Nat := [2012786349430829576988873591942511450914816, 2012786352599322252259332980983521112752128, 2012786354935109608344324186592535268818944, 2012786354936869959080187997343441823465472, 2012786981840797795948756213523045010112512, 2012787015330225178078234656963698641338368, 2012787017537838698375696159670207273500672, 2012787018186875805692549613236519314653184, 2012787020133987127643109973935455438110720, 2012787679880206715224645524091645269639168, 2012787679941687769335714650064235375099904, 2012787682151836590833632611573737413672960, 2012787682476355144492059338356893434249216, 2012787684098947912784192972272673537130496, 2012871421305422219035707589909033036808192, 2012871422936888541529438829635290062127104, 2012871423577052094644694677391125180841984, 2012871424887298973684694728766832351641600, 2012872052432528030564622057174902952165376, 2012872089490391852336566265828776106524672, 2012872090140837735418126482147923351044096, 2012872754366159593741632089141375458607104, 2012872754439813312258994359357048652562432, 2012873749728580019447928717856474077855744, 2012873751032992487082776771996581676187648, 2012874748594152878884937297607712005160960, 2012874748594274197008787264874652119334912, 2012957819765592969822670304262737071439872, 2013042027462489026681869631502736301228032, 2013042059914344392524542309818338358853632, 2013042397477656552599863749076183270031360, 2013044385163442501309637693628548376428544, 2013044385738818462468893164697537828880384, 2013044386063337016127319891480693849456640, 2013044391255633874662147520011190178676736, 2013044519764981123399131326140974326874112, 2013044557477586480188956020667894686810112, 2013044719668410176989995024565083001847808, 2013044889716132294005599858938837783805952, 2013127296721188851890204213488358046826496, 2013127301915887314101245479752158677041152, 2013127301918566216346259042667040381861888, 2013127961598090546371255445132764996698112, 2013127964912996865968075330046643878756352, 2013127966465868851247656346880105305341952, 2013129457048672762114050964297278136778752, 2013296772904518123370260775063108559306752, 2013296776547745948426192074964633571557376, 2013296778488022869841607715222625651261440, 2013297438167553123145050680532950740631552, 2013297440830396809969003642488664121933824, 2013297442710812874363024855497135028699136, 2013297442784456969830862993264577561493504, 2013298103430588122919840586002792921956352, 2013298107723486880592739454171378326962176, 2013299103596770498191012531689648337977344, 2013299104319331340321103290542769165041664, 2013299105607264350152984362463419621703680, 2013300096299026139318369761363915280744448, 2013382177814374981477180790141251206774784, 2013382511095563413981543311143232690192384, 2013382511099366365782227999347722799808512, 2013382511679950340686757065233212867870720, 2013382513044701243776413839352178680004608, 2013382974443407857603269458013698209611776, 2013383140596907330717753570989580744654848, 2013383176359232239056447331313823223119872, 2013384968285401534977078813724288630128640, 2013384999825949816779897373433450188505088, 2013385799052898900549499378603701305344000, 2013466881960641780417746510834378406363136, 2013467546574639672875682962737908546535424, 2013467582333297802818013426687899819048960, 2013468045035138092219135301665556151664640, 2013468211188637565333619414641438686707712, 2013468246236641360443705907222288908943360, 2013468246631514522414799365788511957417984, 2013468246950962473672313174965681165172736, 2013468246953497774872769633768674571583488, 2013469243868156360558533164616486265815040, 2013469244455712413764317492210208201506816, 2013469244522264070276299535788785119789056, 2013469246151195091569574316712048738697216, 2013469740706840956365352524415233849032704, 2013554144026164870389298321138843299872768, 2013554144739218333017677359480738852896768, 2013554145063878011840582619615233373634560, 2013554145324239085023005228271467382177792, 2013554147271350406973565588970403505635328, 2013554148569424621607272496103027587940352, 2013554150516535943557832856801963711397888, 2013554444854864111750874049124474374062080, 2013554809938236977480941680174997522350080, 2013554974793662235961718886018255975088128, 2013637723518648606489733889671386665844736, 2013637724814696313279130629294000881795072, 2013723458078383720803285481756439653384192, 2013892899533290845955012180997198256799744, 4233290428740910717982381000645509046599680, 4233298937617387641931157254996368556032000]
theorem ok01 : (∀ l ∈ enUs01, lineOk l = true) ∧ keysOf enUs01 = keys01 :=
  goodChunk_ok _ _ (by decide +kernel)

def keys02 : List Nat := [4233298938266424749248010708562680597184512, 4233299567183381739279007214319048473968640, 4233299604241879386351065537673669979930624, 4233300263275679336604336164188712610037760, 4233300269503134228349363066308207220621312, 4233300761809701490761025808403169001078784, 4233301263833082950730709696630838658072576, 4233301727178874889767300683005521429528576, 4233301763265718351764421170112919928569856, 4233302260687377104220839514514019256893440, 4233384010156229198497583459347162621542400, 4233384010219611728508994929421997781811200, 4233384010226583806810250191130229649440768, 4233384673870828990093591150888781837500416, 4233384674770227090955519911250692761714688, 4233385169085508047552662107284120885264384, 4233385302389109866352809509874436556193792, 4233385335165483785853908914973194634395648, 4233385338086150768779749456021598819581952, 4233385338410669322438176182804754840158208, 4233386833854279459879716440261036112609280, 4233387164216702385358580764316858465648640, 4233387331279107338836705358165877198946304, 4233387331603625892495132084949033219522560, 4233452926863395423947843491058628318724096, 4233469576357511652543613717960582659833856, 4233469745391113289376635031136974877491200, 4233470372980840100968675353526294498246656, 4233470404459139805836067851492428494143488, 4233470405169657967263990431031330640756736, 4233470405829470104682783834510364659154944, 4233470409002399557054042026456612782211072, 4233470410624992325346175660372392885092352, 4233470410949510879004602387155548905668608, 4233470904217712439813227097552700181577728, 4233471408519544825008360518577156157079552, 4233471899910355846878977485357689985826816, 4233472072484505610149443516914374256099328, 4233472366822833778342484709236884918763520, 4233472398950170590526730660769330955812864, 4233472402195356127110997928600891161575424, 4233556938954065593614898213961095255687168, 4233556973092530083061230110968060928065536, 4233623068046855893179575178362344202829824, 4233640015703802150856954701902362777223168, 4233724287330853278426219205424098060533760, 4233724291225075922327339926821970307448832, 4233724955258489839880747312840010379558912, 4233724956163592368443703105508656468197376, 4233724958110703690394263466207592591654912, 4233725584756030804816272884481868324405248, 4233726083216529224159725223409515929534464, 4233726415523528170388693449361280999620608, 4233726581677027643503177562337163534663680, 4233726615102438670321130421002233654018048, 4233726617440620202442099552062902716334080, 4233727611446654485904190721176528905830400, 4233727613646028277300168732773308967157760, 4233728243212022374648018692095988885094400, 4233809326119765254516265824326665986113536, 4233809990733763146974202276230196126285824, 4233811153808259458775591067061373871587328, 4233811652268757878119043405989021476716544, 4233878279822046597027172709317918028988416, 4233894396711495489132131667978523928166400, 4233894743946347903648729325955465944760320, 4233896263666734686061090851475110303367168, 4233896556706988639620425136664996883726336, 4233896590851157556767784065978697720528896, 4233896592728548095705791809595315167690752, 4233897586474080180820981836701368848482304, 4233963350413776831643038552969775971041280, 4234065238205994753248739753332932215832576, 4234149640289504451505548423683387770798080, 4234149640938541558822401877249699811950592, 4234149645481801310040376052213884100018176, 4234150141021632746457987850093127519961088, 4234150273100684085437665650837627894497280, 4234150308861107517876017067059625318154240, 4234150308871378706381967867200463351840768, 4234150309122243541523032323767946178461696, 4234150937714681977895602102741158034669568, 4234150969222137646568243876941716204290048, 4234150970491055897396701507839916112871424, 4234151469026345702153619381455869207117824, 4234151470312377236085158109274274608971776, 4234151602328679870353538554644688174841856, 4234151968090245807205708915495947538006016, 4234153611098527016014977342380455541866496, 4234153633490307218446421490418220961628160, 4234153633563830953259658795705029747539968, 4234153633814825772104848217201376982204416, 4234153635761937094055408577900313105661952, 4234234679078416427595595042585955696377856, 4234234710881234686121414267335245712850944, 4234234712503827454413547901251025815732224, 4234234716135012598767311021838332147531776, 4234234716460798803025965978022984871313408, 4234234716789262671589595211742244400791552, 4234234716792923260285762081215121111121920]
theorem ok02 : (∀ l ∈ enUs02, lineOk l = true) ∧ keysOf enUs02 = keys02 :=
  goodChunk_ok _ _ (by decide +kernel)

def keys03 : List Nat := [4234235380749010491225247473741862287704064, 4234236040433749024695713897925462013771776, 4234236041407304685670994078274930075500544, 4234236043431108868935362317764416742883328, 4234236044003453114938407892540178240110592, 4234236044073807723251074624323245268008960, 4234237005227409051198372624248311186980864, 4234237040924449953625312570395473450369024, 4234237042289075824771001521106674450956288, 4234237204227003226826508759405270476521472, 4234303632780697770106501927577207739252736, 4234319783159574044340939329678467269656576, 4234319784794843318635355257609214404591616, 4234319786665261779272107739517599984123904, 4234319786728010483983405094891686792790016, 4234319786731813435784089783096176902406144, 4234319787380850543100943236662488943558656, 4234320248130645081554913225165461243559936, 4234320280979908910569135820850279756070912, 4234320282277983125202842727982903838375936, 4234320283178648876664999717746311465795584, 4234320284227629748353859547484833368244224, 4234320447060518474170496743240101856804864, 4234320449981185457096337284288506041991168, 4234320451677358905443515350983740290498560, 4234320452252815332705324371770598186024960, 4234320746591143500898365564093108848689152, 4234320780729607990344697461100074521067520, 4234320781639147296008452056673959070924800, 4234321111025479259311579741577319955824640, 4234321111747406276141556385729692431286272, 4234321111999034920286859921926788017553408, 4234321114334681151207372594184463673458688, 4234321114337216452407829052987457079869440, 4234321114659199704865799320967619694034944, 4234321114919701903212700462975192202739712, 4234321115244220456871127189758348223315968, 4234321116283693949058275298985644851724288, 4234321116542294671504834096890972305620992, 4234321116866813225163260823674128326197248, 4234321446319696844978370552156066129379328, 4234321943817414633448482660646967650025472, 4234322075819139285814238467900169129033728, 4234322113463291510191738774746267515879424, 4234322113529209341403606703624096082558976, 4234322771911436883139567417769833265102848, 4234322772630828598769087603119212334153728, 4234322776130178080699114865950861532594176, 4234322776779215188015968319517173573746688, 4234322776849569796328635051300240601645056, 4234322778077289402649675226649797656051712, 4234322778474064040521111029318265759334400, 4234322938133389488666375918426537773236224, 4234322940725101140832990929786547476627456, 4234322942608196107472025705709900088213504, 4234322943581751768447305886059368149942272, 4234322945204344536739439519975148252823552, 4234323104218435829368535643721598335188992, 4234323107788139919611229638336314561527808, 4234323109735251241561789999035250684985344, 4234388703372428004722367771229065681305600, 4234489927848722248503839426821315868229632, 4234489928497759355820692880387627909382144, 4234490592533074749274442610507913036300288, 4234491086776733446958689845356777428746240, 4234491088002551577379387676604089428344832, 4234491255198179924065287039496927213256704, 4234491255198180199700373911632379046264832, 4234491255778643818786005423495752066269184, 4234491257787236194847634910167278295187456, 4234491257799912700849917204182245327241216, 4234491718542101335702517816276237408010240, 4234492249129936567230216106736331050188800, 4234492252112084604267125773757325340835840, 4234492254064266528618599052062248277114880, 4234492254395757160578281040553636165320704, 4234492914465861476518129202792233665822720, 4234493213923596593732874833059180223397888, 4234578317291700747849840081809796243652608, 4234643915147618708569965302184639507464192, 4234660064237928147672407517664500229603328, 4234660064552939321829122523936430976139264, 4234660064555616986134096801471037781835776, 4234660067085071395785010753426095628877824, 4234660067473750150002535731251816750383104, 4234660067799392509013618021169487885107200, 4234660068383145610418717660558719711182848, 4234660069681219825052424567691343793487872, 4234660069747908892908767288480434514558976, 4234660069747917558489042286142358808428544, 4234660070005738378710851294474499814064128, 4234660070330256932369278021257655834640384, 4234660070654775486027704748040811855216640, 4234660229737319911069125259468083910672384, 4234660398155613354895662590048065625784320, 4234660564641859969109703352494358660120576, 4234660567492681137079023453052679357464576, 4234660728202255107513376401300969977020416, 4234660729427439412633960117847533625016320, 4234660732421630130373037964182746596114432]
theorem ok03 : (∀ l ∈ enUs03, lineOk l = true) ∧ keysOf enUs03 = keys03 :=
  goodChunk_ok _ _ (by decide +kernel)

def keys04 : List Nat := [4234660734043589073365057483397778347393024, 4234660896879013100382151137956040242364416, 4234660897852568761357431318305508304093184, 4234661361265063385590797164652305686986752, 4234661392811816222870514050299261655973888, 4234661392813083873470742279700758359179264, 4234661394114961039905133875037872551100416, 4234661396637585734359310384016311929798656, 4234661397023728943173363340883946354245632, 4234661397286622841676163837582623970951168, 4234661400856326931918857832197340197289984, 4234662059953509412183539928787217987665920, 4234662390637915590120374520823202954870784, 4234662393949652783216623832233340078915584, 4234662394207619680363068515437919181209600, 4234662524339559697392185955483483432288256, 4234662690493059170506670068459365967331328, 4234662889422932563122253586534006580576256, 4234663054278357821603030792377265033314304, 4234663056549987697212017879859357177348096, 4234736628800324706452100342727094061498368, 4234745134431616093816609329246393365168128, 4234745138399362472530967355931074397995008, 4234746299777742281226985207559663254503424, 4234746463364249288879304782504721798660096, 4234746463659611878732482233053453645512704, 4234746463984130432390908959836609666088960, 4234746469500945844584163315150262015885312, 4234746798238240700570437546487310859632640, 4234746930317292039550115347231811234168832, 4234747460905127271077813637691904876347392, 4234747628681219512484431384583567514271744, 4234748127141717931827883723511215119400960, 4234748292391382526979640273219948269010944, 4234748296540402941526635104318657860206592, 4234748462755383468752188343267130500710400, 4234830173220528069906655948148961290747904, 4234830205091799460844799560579073280311296, 4234830205347864882090901899681407327797248, 4234830208338886473329409172512878540881920, 4234830209566606079650449347862435595288576, 4234830869961862774548838351584937467969536, 4234830870027780605760706280462766034649088, 4234830871330291597495211990500628578172928, 4234830873560722828596781622434077868032000, 4234830874891122133536308379304867882074112, 4234830874899361862437791870414596452909056, 4234830874899481942621602552301261667958784, 4234830875227683367896903285402242583101440, 4234830876127715294058946160464901858918400, 4234831336295024381708044738980139036049408, 4234831369140485258921582646460467438944256, 4234831369141119084221696761161215790546944, 4234831372316583837793411411910457320013824, 4234831372385670795505849914292027644706816, 4234831517376377323110158283981198517600256, 4234831533926823559689921349922155566989312, 4234831534251342113348348076705311587565568, 4234831534575860667006774803488467608141824, 4234831535549416327982054983837935669870592, 4234831538539924449739345695990775579410432, 4234831540166833639313380578789677095452672, 4234832532794931720327386388476386900705280, 4234832534742043042277946749175323024162816, 4234832534808745727474721609147437635600384, 4234832535715598703253226929524791085891584, 4234832536689154364228507109874259147620352, 4234832997830019112852885868738964386480128, 4234833033922567002551033388153098049945600, 4234833198707003827419029747512541123182592, 4234833361680601769861000406833943667539968, 4234833362913391978582953499789487534768128, 4234833363886947639558233680138955596496896, 4234833496290517532196338207666611991609344, 4234833527768817237063730705632745987506176, 4234833529066891451697437612765370069811200, 4234833531338521327306424700247462213844992, 4234833533347113703368054186918988442763264, 4234834160904515424654274659570142131781632, 4234915409965757777637005904776701767843840, 4234916274483184723685806055104340582989824, 4234916278701925921245353503285368850481152, 4234917071500752508781847034535527118274560, 4234917436259606820853487938802894245986304, 4234918068421749347468751712390822328532992, 4234918268711811834129225378271425481146368, 4234918433574842996211371960523664153116672, 4234918434478677874174099523790813538549760, 4235000314403988539138387635452677174853632, 4235000347829399565956340494117747294208000, 4235000350101029441565327581599839438241792, 4235001014785381942335930765286436606312448, 4235001016074582602768040066608583766179840, 4235001016082822331669523557718312337014784, 4235001016089794409970778819426544204644352, 4235001643631984324054260539259737455198208, 4235001676480614327768369020243807616106496, 4235001677057395350872213397924807574552576, 4235002672680317974925411168647478702505984, 4235002677548096279801812070394819011149824]
theorem ok04 : (∀ l ∈ enUs04, lineOk l = true) ∧ keysOf enUs04 = keys04 :=
  goodChunk_ok _ _ (by decide +kernel)

def keys05 : List Nat := [4235085424262463766423887419866413606633472, 4235086714223714558670126382911595397251072, 4235087251950957970683212662601121492107264, 4235088375758709289814967512670420747681792, 4235171816942781605470238178095899376353280, 4235171817267300159128664904879055396929536, 4235255561227183038096071658989101223247872, 4235256190793177135443921618311781141184512, 4235258516942169759046699199974136631787520, 4235341958847535266231832394851239384317952, 4235344784682844439598760146688554479648768, 4276761501115060606689827106744917435613184, 4276770506893600662165926184234566459326464, 4276771004640904493716520951468980011270144, 4276771834110327644655234609215768604180480, 4276772167452490813794598535657906451251200, 4276772167715400805517909742300157756571648, 4276772169013475020151616649432781838876672, 4276772831422394693512548057432796753297408, 4276772833688953966720622227308902084509696, 4276773003092709578820286525722331638136832, 4276773131860023724703715015056694888628224, 4276774128781020563390619692911990098886656, 4276838928645815078039423753506178765684736, 4276855710149261862602319164070314805035008, 4276855747144376979662966017350101150728192, 4276856410521781711598264688093597314056192, 4277009069829275547271155440809894649790464, 4277101783481981545153290481352349203824640, 4277110292033939915443640008920052692680704, 4277110294954606898369480549968456877867008, 4277110755770953093335432582050006096150528, 4277110787249252798202825080016140092047360, 4277110788547327012836531987148764174352384, 4277110789845401227470238894281388256657408, 4277111288305899646813691233209035861786624, 4277111292200122290714811954606908108701696, 4277112084998948878251305485857066376495104, 4277112119073397012386111798088448537001984, 4277112121020508334336672158787384660459520, 4277112251152448351365789598832948911538176, 4277112451445679964526833838217293822164992, 4277112455274618602516200745438085854003200, 4277113248073445190052694276688244121796608, 4277113284419523199796487676401718426337280, 4277113285789853498643203659419654591348736, 4277113414226944663167178389664126656839680, 4277113448378719483915906695386807712874496, 4277113451222059780227825242943913002532864, 4277113452844652548519958876859693105414144, 4277113912687443082510630728591774261968896, 4277114281016001484824965627473857616019456, 4277179211012736016502887128113610533896192, 4277349352196196485734618815417326418001920, 4277450705830875085569927730705672794275840, 4277451038137874031798895956657437864361984, 4277451204291373504913380069633320399405056, 4277451239988414407340320015780482662793216, 4277451241286488621974026922913106745098240, 4277451370444872978027864182609202934448128, 4277452367365869816714768860464498144706560, 4277452401517644637463497166187179200741376, 4277452731223424552024138660267709293395968, 4277452732124724128786409764731865272418304, 4277452732522766417258073796801830078906368, 4277452899324035347089183133942527951896576, 4277452903795039014094148233021400157257728, 4277453696593865601630641764271558425051136, 4277453730738668344078114808286007613456384, 4277453733588980718691288617551344770744320, 4277453734624017433777637923873402937933824, 4277453736185129147958702431816592935354368, 4277519493379656954966350502721042302107648, 4277604563971387189582216346372900244160512, 4277689634563117424198082190024758186213376, 4277705789162636371892409384409291038916608, 4277706430994417677048607032614071172071424, 4277706451763605111187917546736056488951808, 4277706453457186313092832027135651971334144, 4277707118000195771937987632555366732005376, 4277708077601558939905818730347719575994368, 4277709110293120415832900659636985835552768, 4277774705154847658813948033676616128266240, 4277859775746577893429813877328474070319104, 4277876590675435704810662146557680229023744, 4277961461688255439494091018568585516679168, 4277961495762703573628897330799967677186048, 4277961627841754912608575131544468051722240, 4277962825053448063256067589981114766196736, 4277962988939120612562249303679395266822144, 4277963154701549875506324646293544863006720, 4277963154775073610319561951580353648918528, 4277963289376749643753416261303293402152960, 4277963802765101531384498032256117953789952, 4277963819315547767964261098197075003179008, 4277963820289103428939541278546543064907776, 4277963820613621982597968005329699085484032, 4277963821911696197231674912462323167789056, 4277963953990747536211352713206823542325248, 4277964151622546714193229324148840073265152]
theorem ok05 : (∀ l ∈ enUs05, lineOk l = true) ∧ keysOf enUs05 = keys05 :=
  goodChunk_ok _ _ (by decide +kernel)

def keys06 : List Nat := [4277964153894176589802216411630932217298944, 4277964156165806465411203499113024361332736, 4277964322058169914878672355380586036068352, 4278029916930038362661545564632189954424832, 4278217541875095733291609421249670404898816, 4278218538862010403190382027982794181836800, 4278285128705229066509143095587763780583424, 4278303608738785699277526489190511516057600, 4278370199296959301125008939239621722636288, 4278388143874902397489293140634935507288064, 4278388642335400816832745479562583112417280, 4278389140795899236176197818490230717546496, 4278472250710685747053784556440334349893632, 4278472415177434971400130917373514770022400, 4278473248541080766239965296518175609847808, 4278473414694580239354449409494058144890880, 4278473546773631578334127210238558519427072, 4278473584484335459223609560663233824555008, 4278474244164003390293163067240846737801216, 4278474411679593433352879672124936867020800, 4278474414924778969937146939956497072783360, 4278474415185281168284048081964069581488128, 4278474575172928121888424386059987725582336, 4278474577839431159468504932108302918090752, 4278474579716187873106398561024172013649920, 4278540340480419770356740626543337606742016, 4278625411072150004972606470195195548794880, 4278803195316586237470607354389508044881920, 4278814659908049882370011149725402962853888, 4320310001019964966746869859605587154698240, 4320326318207082249113671860555776425721856, 4320326319110917127076399423822925811154944, 4320326483966342385557176629666184263892992, 4320326649216006980708933179374917413502976, 4320327114830410697538733496121488264134656, 4320327280983910170653217609097370799177728, 4320327977149731502791783864253843721158656, 4320327980707392912332309679554341267046400, 4320327980712599688137543988990566983532544, 4320327981619467519196520733931219223314432, 4320328310356762375182794965268268067061760, 4320328310681280928841221692051424087638016, 4320328312042103848186225954558134978609152, 4320328312052245052988051789770108604252160, 4320328312056681830088850592675347065470976, 4320328315625752095031430472589314940207104, 4320328317171652002009756227714544499163136, 4320328643060535959283198993888501240430592, 4320328978609551315595863914168084758265856, 4320329146380714079766047276805099083530240, 4320329146383235763626071596425068599574528, 4320329147939149367582176792593957174378496, 4320329308575833428503406550256187359625216, 4320329308975143367575298811727648869318656, 4320329638679655631535712076406682258767872, 4320480142203425435978601546909303038803968, 4320497453645670344752341794367220679180288, 4320497619799169817866825907343103214223360, 4320498620685497814251442834966751265947648, 4320498620938907854113278033379426691973120, 4320498623284061464535502426148327621918720, 4320657926447861668476602431103615534891008, 4320666913664686684946373963826449373724672, 4320666931582927919172396553982349181714432, 4320667729504330582231165096680685102432256, 4320668242892682469862246867633509654069248, 4320668263012832796684703928189182929797120, 4320668560271827947803585661560097777647616, 4320668592399164759987831613092543814696960, 4320668593048201867304685066658855855849472, 4320668594346276081938391973791479938154496, 4320668597915980172181085968406196164493312, 4320668892578826894032553887511862847733760, 4320669256433212502841353113811332238409728, 4320669422517625018243398724405644448759808, 4320669428425510640607061850081029737414656, 4320669428425631958730911817347969851588608, 4320669428683477537753506533285608839708672, 4320669557192824786490490339415392987906048, 4320669588671124491357882837381526983802880, 4320670055653323205833942678343040593035264, 4320905495162076609057930765168592749068288, 4320913138223052372324199962059189361049600, 4320921643854343759688708948578488664719360, 4320921647815240616165700966202152843214848, 4320921647815260423206329532286551229202432, 4320922276665523393620826175732728788418560, 4320922308214811532100999520182678163816448, 4320922309117378759463498854048330846044160, 4320922311783881797043579400096646038552576, 4320922312104597398901321438675311949512704, 4320922312426580651359291706655474563678208, 4320922313689794474486722305246939307835392, 4320922313733528420194596219598575568420864, 4320922976976562188505702573783421191979008, 4320922977040635489059035286051650063564800, 4320922977040721184974684488655328285556736, 4320922977043113845017684617361998110261248, 4320922977301080742164129300566577212555264, 4320922978923673510456262934482357315436544]
theorem ok06 : (∀ l ∈ enUs06, lineOk l = true) ∧ keysOf enUs06 = keys06 :=
  goodChunk_ok _ _ (by decide +kernel)

def keys07 : List Nat := [4320922980870784832406823295181293438894080, 4320923938200518124765667305491554138849280, 4320924803042463624472894182602348974571520, 4320990565753806843673796608820450691121152, 4321006682643255735778755567481056590299136, 4321006714446073994304574792230346606772224, 4321006719638370852839402420760842935992320, 4321007014950254682007723793432821660385280, 4321007384252368745297338872664373076164608, 4321007547548006885439086927458583594401792, 4321008011871251520694628471288116870643712, 4321008541810049644905473308181898471669760, 4321008544406198074172887122447146636279808, 4321008676485249413152564923191647010816000, 4321008842638748886267049036167529545859072, 4321008874117048591134441534133663541755904, 4321008874190572325947678839420472327667712, 4321008875484209763480586943647857948753920, 4321008876064159913085001894832599665213440, 4321008876093315876890251171067023838937088, 4321008878660308342352415709097847829823488, 4321009044489289261808473095290574344290304, 4321009207722121751997116667218052694147072, 4321009208695677412972396847567520755875840, 4321009209082944671342120929724763585118208, 4321009711111879530328039033865630713380864, 4321009711116950132728951951471617526202368, 4321009839559745724953953714022824756117504, 4321009873711520545702682019745505812152320, 4321010836480742563640858391878119966375936, 4321160706937267312905528296124166575226880, 4321178153054711989926360158591832754749440, 4321245777528997547521394139776024517279744, 4321261931413561556686999951716416762150912, 4321261931475186466241230980471552473038848, 4321261931477577911998525536492000274022400, 4321262594404966680852802769704166799441920, 4321263255773779036726471953776136733851648, 4321263259018964573310739221607696939614208, 4321265882102433794373971809857811257491456, 4321415918712458016753125827079740401385472, 4321500989304188251368991670731598343438336, 4321517139619048170291903488057274361970688, 4321517770807635035931887081295734382788608, 4321518103114633982160855307247499452874752, 4321518140109749099221502160527285798567936, 4321518435421632928389823533199264522960896, 4321518471181422535528060834720513595015168, 4321518967956579481868082184358294288596992, 4321518969903690803818642545057230412054528, 4321518969975946888031651620942542494760960, 4321519132884260824561868466086864824041472, 4321519297667429998829636596044811194073088, 4321519298965504213463343503177435276378112, 4321519299614541320780196956743747317530624, 4321519303833282518339744404924775585021952, 4321519629974428945058604821996576264159232, 4321519632633326079037315991635911237435392, 4321519633544133035301298816611292490498048, 4321519962605946444945999774731497354821632, 4321519966894408425518099839994844298608640, 4321520129733001579035764068056847951593472, 4321520595417126078878117001885737478520832, 4321520628193499998379216406984495556722688, 4321520793048925256859993612827754009460736, 4321521292807497890837152858888025696894976, 4321521294105572105470859766020649779200000, 4321671130487648720600723358035314227544064, 4321772355361985252853859045697529220956160, 4321772355642136035504297743428300629344256, 4321772355679654284274919763419668387201024, 4321773014134649179460114415504250990755840, 4321773015034681105622157290566910266572800, 4321773020288459018268054045069996701253632, 4321773020876015071473838372663718636945408, 4321773647196823632237421064154838349119488, 4321773680297716105396947196036752447897600, 4321773682893864534664361010302000612507648, 4321773684516457302956494644217780715388928, 4321773684907527513126903414579513654247424, 4321774680532351613080443529404429837008896, 4321774680534253088980785873506674891816960, 4321774681501470496954924906848659437518848, 4321775673490672675453903098181030827261952, 4321841271671109189832455045339030111649792, 4321926342262839424448320888990888053702656, 4321942490955106575079099072400783969353728, 4321942494914613224891973607975736431345664, 4321942494922852953793457099085465002180608, 4321943123766286209011216299555024093052928, 4321943160761401326071863152834810438746112, 4321943820581778473766750122978557407789056, 4321943823819358106749648014401137394319360, 4321945819217392895903608960448930999435264, 4321946114529276725071930333120909723828224, 4322028028204516970512598030230999500062720, 4322028360511515916741566256182764570148864, 4322028858972014336085018595110412175278080, 4322028896692859421776326780747061106049024, 4322029391506960889563277246269441940914176]
theorem ok07 : (∀ l ∈ enUs07, lineOk l = true) ∧ keysOf enUs07 = keys07 :=
  goodChunk_ok _ _ (by decide +kernel)

def keys08 : List Nat := [4322029395143358999422471103194348484820992, 4322029395150822539919322660871715304767488, 4322029555064311933410347544980076311347200, 4322029556362386148044054452112700393652224, 4322029557660460362677761359245324475957248, 4322029689739511701657439159989824850493440, 4322030056120958782021213698172972081086464, 4322030061313255640556041326703468410306560, 4322030385893924178393951350532827443625984, 4322030388489438782361251050097327256633344, 4322030520507009067229859724869237525708800, 4322030557893194394460915348510756810260480, 4322030686660508540344343837845120060751872, 4322030720798973029790675734852085733130240, 4322030720809748059892615684764807710375936, 4322030723655623657404990691124906406445056, 4322351695221490597527650107250177763966976, 4322453547316667616706411361466171745370112, 4363866143985845090070181809356853485764608, 4363873787046820853336451006247450097745920, 4363882427028793455289624880993341919985664, 4363882626932222508880488579417450594959360, 4363883091642791347747561332896872060157952, 4363883257796290820862045445872754595201024, 4363884254717287659548950123728049805459456, 4363884454296198159481387095369002459856896, 4363885117936640390964043366923064538300416, 4363885120208270266573030454405156682334208, 4363885124751530017791004629369340970401792, 4363885417791783971350338914559227550760960, 4363885451941023490898610761478915200385024, 4363885453813343427435705587489545834725376, 4363885750098782917579307140510992620847104, 4363885782875156837080406545609750699048960, 4363886248559281336922759479438640225976320, 4363951214577575324686047653008711427817472, 4364036285169305559301913496660569369870336, 4364121355761035793917779340312427311923200, 4364214069413741791799914380854881865957376, 4364222576343107393798130274506805251932160, 4364222743543686262701131873118964634615808, 4364222745486994632851007545613410648457216, 4364222907097234354747517483625108895432704, 4364222909692115133414703068488860356837376, 4364222911639860280665377543888544831897600, 4364223041702713339982056481552538758283264, 4364223222784066281384170026553598239834112, 4364223905571103178714003178313865532276736, 4364224405069173614344261282366564711006208, 4364224405076779517945630658775544930238464, 4364224406952268580983296058289917322592256, 4364224537084208598012413498335481573670912, 4364224552012062066300042930360658520178688, 4364224571221405436858517165940950542843904, 4364224571221462382100324293433595902558208, 4364224571227109864559544198247685707268096, 4364224573175631200214850607079731933216768, 4364224573178024138310789247151111940341760, 4364224703237708071126897611311364108713984, 4364224734788263860207299185162810187317248, 4364224739259267527212264284241682392678400, 4364224740948538221900387070524079124512768, 4364224741206378849162824644940618516135936, 4364225035544707017355865837263129178800128, 4364225067023006722223258335229263174696960, 4364225069619155151490672149494511339307008, 4364225073513377795391792870892383586222080, 4364225201698206490470349950239011713843200, 4364225401601635544061213648663120388816896, 4364225403224228312353347282578900491698176, 4364225403615449551208548869334171123712000, 4364225405171339634303907643277836615155712, 4364225534005205436699318176190776783929344, 4364225548933058904986947608215953730437120, 4364225566132542248883564127723222820978688, 4364225570026764892784684849121095067893760, 4364225571715909317588800526615452089057280, 4364225571721613745289827558922187253481472, 4364225571973876214735245209820031191351296, 4364225700158704909813802289166659318972416, 4364225736180264365899168962096977602936832, 4364226032465703856042770515118424389058560, 4364226066608605122589901215030628522655744, 4364226530926202275386222854046071994187776, 4364291496944496263149511027616143196028928, 4364392684425675389870335829928607037259776, 4364393386683825506705772588678235564277760, 4364394013653671174786208733735667317604352, 4364396672109662744617954541349787878293504, 4364461638127956732381242714919859080134656, 4364554351780662730263377755462313634168832, 4364562825609135859102067517232322921365504, 4364562857411954117627886741981612937838592, 4364563189463521467910866743531792312041472, 4364563190692508724832135148282846069653504, 4364563195560287029708536050030186378297344, 4364563324069634278445519856159970526494720, 4364563525920174653986943915283015324925952, 4364563656376633224674488082111735596580864, 4364563855306506617290071600186376209825792]
theorem ok08 : (∀ l ∈ enUs08, lineOk l = true) ∧ keysOf enUs08 = keys08 :=
  goodChunk_ok _ _ (by decide +kernel)

def keys09 : List Nat := [4364564684849590914386383240430487391436800, 4364564985604629009590360985918795876925440, 4364565017082928714457753483884929872822272, 4364565018410158892896709667251978128850944, 4364565019679077143725167298150178037432320, 4364565019756403830339089291641476932960256, 4364565151758128482704845098894678411968512, 4364565185183539509522797957559748531322880, 4364565352959631750929415704451411169247232, 4364565650218626902048297437822326017097728, 4364565682995000821549396842921084095299584, 4364565687929330782937779788247001322225664, 4364565816372126375162781550798208552140800, 4364565850446574509297587863029590712647680, 4364565854016278599540281857644306938986496, 4364566016600073982412071976005473247690752, 4364566314832624794506233889725856157270016, 4364631779311417201612974402223574964240384, 4364716849903147436228840245875432906293248, 4364818037384326562949665048187896747524096, 4364818716926177923695230932116603834204160, 4364818734450179821250274178407028945321984, 4364818739347114089931924356388793427689472, 4364818739390848035639798270740429688274944, 4364820363533319186552442629850252238127104, 4364821360454316025239347307705547448385536, 4364822025068313917697283759609077588557824, 4364886991086607905460571933179148790398976, 4364972061678338140076437776831006732451840, 4365057132270068374692303620482864674504704, 4365064775331044137958572817373461286486016, 4365073780396389605641814323169876257013760, 4365073913773515159255199031047000713854976, 4365074079927014632369683144022883248898048, 4365074246080514105484167256998765783941120, 4365075108326311175923980319844312455053312, 4365075110922459605191394134109560619663360, 4365075112941827011354963570693808825827328, 4365075277153285764919800240576742050234368, 4365075440706833856966185851082886311051264, 4365075443229458551420362360061325689749504, 4365075607760365256242712839121428121911296, 4365075777808087373258317673495182903869440, 4365076073769008309743492499733473669414912, 4365076239922507782857976612709356204457984, 4365076609873658953464445145507219661389824, 4365076738383006202201428951637003809587200, 4365077070690005148430397177588768879673344, 4365142202861798609308169464134722616557568, 4365312344045259078539901151438438500663296, 4365328494430609779179801092377420450758656, 4365328495009156104779666422330426560348160, 4365329125548705863102796562002574540013568, 4365329157099261652183198135854020618616832, 4365329161245746765529736508149736803401728, 4365329821965522014086552238655394696658944, 4365329825210707550670819506486954902421504, 4365330823429778603991431091474874194984960, 4365330825701408479600418178956966339018752, 4365331820419358558794785121939855786377216, 4365332448618695325392478821520225240875008, 4365397414636989313155766995090296442716160, 4365416023828930301977987648389140367540224, 4365417186903426613779376439220318112841728, 4365417519210425560008344665172083182927872, 4365499765192664751677980588233938029248512, 4365567555820449782387498682394012326821888, 4365583672709898674492457641054618225999872, 4365584005016897620721425867006383296086016, 4365584036495197325588818364972517291982848, 4365584037865527624435534347990453456994304, 4365584042690205808904175450086905856655360, 4365584042733939754612049364438542117240832, 4365584372371900362060480585538998588407808, 4365584669630895513179362318909913436258304, 4365585533174766798252882288888084189675520, 4365585698418726965703611806290082174861312, 4365585832705391824980751109741091181559808, 4365586165012390771209719335692856251645952, 4365586197788764690710818740791614329847808, 4365652626412180017003364526045870268874752, 4365737697003910251619230369697728210927616, 4365907838187370720850962057001444095033344, 4365926115072312763444214484348522949771264, 4365926978616184048517734454326693703188480, 4365926982185888138760428448941409929527296, 4407438569994673578612936830744608251052032, 4407438773792325276104921250566589172940800, 4407438902301672524841905056696373321138176, 4407438936440137014288236953703338993516544, 4407439433538544863686456800722779004469248, 4407439433610800947899465876608091087175680, 4407440231529668309757777960503433601482752, 4407440264378298313471886441487503762391040, 4407440267625385325956496053421309022961664, 4407440430531797786586370554463386297434112, 4407440596288522621829418864770800729194496, 4407441259928964853312075136324862807638016, 4407441260578001960628928589891174848790528, 4407441261299928977458905234043547324252160]
theorem ok09 : (∀ l ∈ enUs09, lineOk l = true) ∧ keysOf enUs09 = keys09 :=
  goodChunk_ok _ _ (by decide +kernel)

def keys10 : List Nat := [4407441262587861987290786305964197780914176, 4407441262593566414991813338270932945338368, 4407441263174150389896342404156423013400576, 4407441266094817372822182945204827198586880, 4407441266158833728133708529980410710458368, 4407441430950242631302960151048085651324928, 4407441431923798292278240331397553713053696, 4407441432248316845936667058180709733629952, 4407441560757664094673650864310493881827328, 4407441593603758797187302886491570636324864, 4407441594574145331662012493337296940040192, 4407441594896762409420096876018207905808384, 4407441598726334872709577897939748289249280, 4407441893064663040902619090262258951913472, 4407441925910757743416271112443335706411008, 4407441927139111175037425402493641112420352, 4407441929086222496987985763192577235877888, 4407507357543455448009359602759977758883840, 4407524174124061991487590782139388194193408, 4407524174167795937195464696491024454778880, 4407524174743943134999194959471276061622272, 4407524841305052349407691772073742325252096, 4407526299042395383060548482010586753794048, 4407608577476489940572857083388043657740288, 4407608580784424181868421706593690672168960, 4407608908809933225826545128990340666097664, 4407609209638632467188120856975971740286976, 4407609247031276127604128309511639755915264, 4407609874252630359646057308879501880459264, 4407609906055448618171876533628791896932352, 4407609907420197280460858254238146648604672, 4407609907420199521261533307747757709066240, 4407609907430215694119391319551966523162624, 4407609909625152708414570528243508123271168, 4407609911896782584023557615725600267304960, 4407609911960798939335083200501183779176448, 4407610404260515441569340648154853806178304, 4407610410754689466538559872022464327319552, 4407610906221630993443048479315647312953344, 4407610906615236504813913708480373658222592, 4407610906617263012658223875990383524577280, 4407610906933416805471199288256046162771968, 4407610908168742315393608840014583436410880, 4407610908230223369504677965987173541871616, 4407610908239096923706275571797650464309248, 4407611369634125617676414325662444695846912, 4407611402479586494889952233142773098741760, 4407611733489145051785327666662662438125568, 4407611734717498483406481956712967844134912, 4407611868094624037019866664590092300976128, 4407611903142627832129953157170942523211776, 4407611903204108886241022283143532628672512, 4407693615616364809346050248724299542167552, 4407694114076863228689502587651947147296768, 4407694317225477818864633553907616028033024, 4407694317549996372523060280690772048609280, 4407694944844360594261923152531359822512128, 4407694976322660299129315650497493818408960, 4407694976647178852787742377280649838985216, 4407694977033178460557238230036395965022208, 4407694980216882943030436371895366065324032, 4407694982488512818639423459377458209357824, 4407694984435624140589983820076394332815360, 4407695941765357432948827830386655032770560, 4407695976813361228058914322967505255006208, 4407695977462398335375767776533817296158720, 4407696474300303986427086481545684798406656, 4407696973734358066745819000822800465264640, 4407696973804712675058485732605867493163008, 4407779018515093990190884318327922554306560, 4407779218743041597440174743535187249856512, 4407779516975592409534336657255570159435776, 4407780547971037382356047647342247530201088, 4407780553163334240890875275872743859421184, 4407780680050088721335725448086747904737280, 4407780877681887899317602059028764435677184, 4407781178510587140679177787014395509866496, 4407781676971085560022630125942043114995712, 4407781714615237784400130432788141501841408, 4407781882391330025806748179679804139765760, 4407782507738582925595050690821455790211072, 4407847639910376386472822977367409527095296, 4407864458472954643407890825986915424010240, 4407864587567322644150202500907428101488640, 4407865118155157875677900791367521743667200, 4407865118221709532189882834946098661949440, 4407865121075824858603741332415925928853504, 4407865121788878321232120370757821481877504, 4407865121791557467680149495827796477345792, 4407865123671973287871155146681174093463552, 4407866120008091737657249774477354173726720, 4407867117253521712139870487876837364989952, 4407948862439559308303734272260723590561792, 4407949529000668522712231084863189854191616, 4407950188422369556635339908236223665143808, 4407950188746888110293766635019379685720064, 4407950192381876206448214443811176127135744, 4407950194263703522487020990333032035516416, 4407950987387048663681941248366346323886080, 4407951168468401605084054793367405805436928]
theorem ok10 : (∀ l ∈ enUs10, lineOk l = true) ∧ keysOf enUs10 = keys10 :=
  goodChunk_ok _ _ (by decide +kernel)

def keys11 : List Nat := [4407951190860181807515498941405171225198592, 4407952185509548770593416531778374291423232, 4407952187456660092543976892477310414880768, 4407952815075542867941266491101054209359872, 4408017781093836855704554664671125411201024, 4408034599592398757328096928515047796244480, 4408102851685567090320420508322983353253888, 4408119300882014928654347692935354322518016, 4408119467035514401768831805911236857561088, 4408119965496012821112284144838884462690304, 4408120000544016616222370637419734684925952, 4408120994219827918325008047443469689421824, 4408121161671401606073199067551976306769920, 4408121161995920159731625794335132327346176, 4408121165963666538445983821019813360173056, 4408121825636362391214282065889194405789696, 4408122158267879891101677018624115496452096, 4408122159241435552076957198973583558180864, 4408122164758250964270211554287235907977216, 4408187922277297324936286351974841295306752, 4408207394688591045173600248468699952971776, 4408207394755142701685582292047276871254016, 4408290474683513138999924004241527680270336, 4408290968925270360783828894988147017908224, 4408374180350206686272976997939163078590464, 4408374195278060154560606429964340025098240, 4408374212477543498457222949471609115639808, 4408374216110630118711328414161160502247424, 4408374218061056644087095023236276480376832, 4408374218967914571625757485134729527164928, 4408374219353914179395253337890475653201920, 4408374876442504283598305947808827214659584, 4408374876839399001653552432363960532992000, 4408374877091541390915159401375139255812096, 4408374877416059944573586128158295276388352, 4408374878451096659659935434480353443577856, 4408374880661245481157853395989855482150912, 4408374881959319695791560303122479564455936, 4408374882283838249449987029905635585032192, 4408375011117704051845397562818575753805824, 4408375509578202471188849901746223358935040, 4408375541445037085026194711271096887279616, 4408375541734695247178345129513093569708032, 4408375541767020337484164979251259501445120, 4408375542426832474902958382730293519843328, 4408375543070286472642634771256810510745600, 4408375544950724819957363121110229601746944, 4408375545340527379527543662070465837400064, 4408375545599761927274216574676541642899456, 4408375546897836141907923481809165725204480, 4408375546963753973119791410686994291884032, 4408375547871391802883203662158633786933248, 4408376039517000595399694738640004959961088, 4408376039579115474810877979313343417024512, 4408376044060260346617668913604189248028672, 4408376538626536122060000531133964606242816, 4408376539924610336693707438266588688547840, 4408376542874433283424797255549417047457792, 4408377204863126782810070616953274849296384, 4408377368744996380315567642447065240305664, 4408377535872051514405331935772415837077504, 4408377536845607175380612116121883898806272, 4408459283069273733073088793123467057692672, 4408459284367347947706795700256091139997696, 4408459286638977823315782787738183284031488, 4408459286700458877426851913710773389492224, 4408459417095436394003326954566903555686400, 4408459915555934813346779293494551160815616, 4408459950603938608456865786075401383051264, 4408459953200087037724279600340649547661312, 4408460612358750572100030822903117443497984, 4408460612946306625305815150496839379189760, 4408460613667719897019488361835128718098432, 4408460615866973608231655691545243564376064, 4408460615930989963543181276320827076247552, 4408460615933525264743637735123820482658304, 4408460617489566376523789325461023667257344, 4408460617555484207735657254338852233936896, 4408460617562456286036912516047084101566464, 4408460619761196252132776412943115811291136, 4408461445089204892125864616000175032238080, 4408461610516340571309573281918446630600704, 4408461612854659514774903090189629495705600, 4408461777318877151740910848460641206796288, 4408462609059930178288611593689521943740416, 4408462609121411232399680719662112049201152, 4408462609708967285605465047255833984892928, 4408463238625924275636461553012201861677056, 4408544356976544112585888636389952233406464, 4408544357304231792744885936676850011996160, 4408544687654753162686060614769792184745984, 4408544854131362413694264691775995536998400, 4408545017625964752830037635112543098765312, 4408545018924038967463744542245167181070336, 4408545021520187396731158356510415345680384, 4408545023213134773335958722209262476460032, 4408545023533850375193700760787928387420160, 4408545023540822453494956022496160255049728, 4408545023864073356553154519877819572420608, 4408545024765372933315425624341975551442944]
theorem ok11 : (∀ l ∈ enUs11, lineOk l = true) ∧ keysOf enUs11 = keys11 :=
  goodChunk_ok _ _ (by decide +kernel)

def keys12 : List Nat := [4408545682961889662117950731168445714399232, 4408545683538036859921680994148697321242624, 4408545685809666735530668081630789465276416, 4408545686783222396505948261980257527005184, 4408545688147214442351523097990710175989760, 4408545688405815164798081895896037629886464, 4408545688730333718456508622679193650462720, 4408545690352926486748642256594973753344000, 4408546481529160305993002153929351918256128, 4408546647682659779107486266905234453299200, 4408546681108070805925439125570304572653568, 4408546685002293449826559846968176819568640, 4408546685975849110801840027317644881297408, 4408547350914365556918203206004331042045952, 4408547509993865887403020967335626151034880, 4408547512264245443572329820740070179602432, 4408547676081956322661783442726663659454464, 4408547677704549090953917076642443762335744, 4408548324145507978539956828689236750237696, 4408548475371153983366811509639942338772992, 4408630222892894755692995093774149579964416, 4408630389046394228807479206750032115007488, 4408630721353393175036447432701797185093632, 4408631219813891594379899771629444790222848, 4408631915978445275918237797384421008998400, 4408632216734888433066804449484740000481280, 4408632249511262352567903854583498078683136, 4408632252824901021564495510095880257536000, 4408632382888387906181288562460622535524352, 4408632549041887379295772675436505070567424, 4408632585063446835381139348366823354531840, 4408632752839539076787757095258485992456192, 4408633047502385798639225014364152675696640, 4408714462717127624736440372546594846801920, 4408714496791575758871246684777977007308800, 4408714498476917231874677674067843918856192, 4408715162379129312304463317030975209209856, 4408715163101690154434554075884096036274176, 4408715165041973253527021077657345897529344, 4408715658567997856038928568476530670305280, 4408716324480069963130571927512684892782592, 4408716788866120248339217954208950337404928, 4408717320165741291895067053609442829402112, 4408717320165861372078877735496108044451840, 4408717320166375117195181168310191181004800, 4408717320168910418395637627113184587415552, 4408717323348178123768036966066916226498560, 4408717323410293003179220206740254683561984, 4408717487230047721273533991560706617507840, 4408717653770180627457628071993083630190592, 4408717823431269311403622938910343934509056, 4408717823492750365514692064882934039969792, 4408783416419408967247347257537846889676800, 4408802890521748588189119175628307623313408, 4408802890526185365289917978533546084532224, 4408884603900588093968172059850310730907648, 4408884635703406352493991284599600747380736, 4408884639661011526406523476072308154564608, 4408884640895703211028818913130097076600832, 4408884641611348920099461537767631395749888, 4408884770054087567082656172826193265950720, 4408884805102091362192742665407043488186368, 4408884969957516620673519871250301940924416, 4408884970021532975985045456025885452795904, 4408885283442439454713737943779017817587712, 4408885300061338823705825397400796840067072, 4408885300712277406923021195069353936027648, 4408885302658754903573467441067541707882496, 4408885303591745745341444280569115267039232, 4408885303957462943507288462900914141790208, 4408885304273107942964117583873593239928832, 4408885304274500625508313636682854754680832, 4408885304275643244164574042676586646339584, 4408885304285150623666285763187811920379904, 4408885305185182549828328638250471196196864, 4408885305907109566658305282402843671658496, 4408885305907743391958419397103592023261184, 4408885306158738210803608818599939257925632, 4408885766975084405769560850681488476209152, 4408885933128583878884044963657371011252224, 4408885964606883583751437461623505007149056, 4408885965323739998180501188169890669789184, 4408885965974678581397696985838447765749760, 4408885965977213882598153444641441172160512, 4408885968889641136622510494580116786511872, 4408885969150143334969411636587689295216640, 4408885970772736103261545270503469398097920, 4408885971097254656919971997286625418674176, 4408885971421773210578398724069781439250432, 4408885971483254264689467850042371544711168, 4408886597742581771341981415560901151424512, 4408886798043419288104395031354226281283584, 4408886798044053113404509146054974632886272, 4408886798047856065205193834259464742502400, 4408886799917640700541832201467101970432000, 4408886930049580717570949641512666221510656, 4408886961852398976096768866261956237983744, 4408886962176917529755195593045112258560000, 4408886967044695834631596494792452567203840, 4408886968018251495606876675141920628932608]
theorem ok12 : (∀ l ∈ enUs12, lineOk l = true) ∧ keysOf enUs12 = keys12 :=
  goodChunk_ok _ _ (by decide +kernel)

def keys13 : List Nat := [4408887594663578610028886093416196361682944, 4408887627513476264343222803801763225796608, 4408887793665708086857478687376149057634304, 4408887795865081878253456698972929118961664, 4408887799434785968496150693587645345300480, 4408887926970577556257854319367961431769088, 4408887964614729780635354626214059818614784, 4408888290830033767467566463273417635266560, 4408969674492318328584037903502168672960512, 4408969707981802655955323474435467663900672, 4408969707981888073818034165674435703472128, 4408970006799317274813006129453933743046656, 4408970038277616979680398627420067738943488, 4408970038347337762692951244502386415239168, 4408970043794432391873652982733720088739840, 4408970044767988052848933163083188150468608, 4408970339106316221041974355405698813132800, 4408970371233653033226220306938144850182144, 4408970371305909117439229382823456932888576, 4408970374866105828180211656926947885187072, 4408970376175012018157665641464939304452096, 4408970376175097436020376332703907344023552, 4408970376176342803699897425260455862992896, 4408970837566814640385426694333346418262016, 4408970869045114345252819192299480414158848, 4408970870412909342899078716514423172759552, 4408971003720314113499910807309228953305088, 4408971035847650925684156758841674990354432, 4408971036172169479342583485624831010930688, 4408971036236322008058430462230653426466816, 4408971037215566003514226964943282964004864, 4408971039092836462268424026673235196116992, 4408971039417355015926850753456391216693248, 4408971041113596550976189516066744917032960, 4408971041688984891535837840938483360727040, 4408971370171481976876237962574694860193792, 4408971702408760140092653571444141253984256, 4408972035689314747296901977745374385799168, 4408972035763472307410253397732931523313664, 4408972036338351854613755431311686426951680, 4408972036399832908724824557284276532412416, 4408972166794810425301299598140406698606592, 4408972199643440429015408079124476859514880, 4408972200941634723832925668143766156869632, 4408972203853941897673472036195776556171264, 4408972665255308844644751937068054303735808, 4408972699391871858190741489972774921306112, 4408972862956828805639181165092389510971392, 4408972865548540457805796176452399214362624, 4408972865552343409606480864656889323978752, 4408972867430367773844602722974255122743296, 4408972867500088556857155340056573799038976, 4408972868403923434819882903323723184472064, 4408972868474278043132549635106790212370432, 4408972868478203550997123575958495335284736, 4408973034557422907934367016299605719515136, 4408973034629678992147376092184917802221568, 4408973329869306737102688388971584443908096, 4409054776886866821725722971903316631486464, 4409055445458469888096191615279554178842624, 4409055445719605911743206871987875039150080, 4409055944243486861098070680990357804548096, 4409056106439381160300022602493532932407296, 4409056106827916069269974914052272464855040, 4409056110009085250542716597108249158746112, 4409056110079439858855383328891316186644480, 4409056111307159465176423504240873241051136, 4409056112022885640349619678596276003274752, 4409056112022894305929894676258200297144320, 4409056905079541713688197215840499570573312, 4409057106991563143340690400936134474465280, 4409057601171839311013526165710163706642432, 4409057602469913525647233072842787788947456, 4409057603830736444992237335349498679918592, 4409057603832637920892579679451743734726656, 4409057605780383068143254154851428209786880, 4409057605787988971744623531260408429019136, 4409058099632337730356978504637811311771648, 4409058768140558266716035677939213698859008, 4409058898921535391062006571551089991090176, 4409123698786329905710810632145278657888256, 4409141975671271948304063059492357512626176, 4409142307978270894533031285444122582712320, 4409142676306829296847366184326205936762880, 4409142806438769313876483624371770187841536, 4409143005368642706492067142446410801086464, 4409143006735170053538098437259856856481792, 4409143009587383904051614590627439068577792, 4409224922613587042175428834171216803659776, 4409224923587142703150709014520684865388544, 4409224923660666437963946319807493651300352, 4409225582359806629756964384327406635188224, 4409225585997963852411982766622944834617344, 4409225585999865328312325110725189889425408, 4409225586643831833228265646685515117756416, 4409225586645099483828493876087011820961792, 4409225587876622041950218739641058984984576, 4409225587938736921361401980314397442048000, 4409226215495504817347508338264802779463680, 4409226247947360183190181016580404837089280]
theorem ok13 : (∀ l ∈ enUs13, lineOk l = true) ∧ keysOf enUs13 = keys13 :=
  goodChunk_ok _ _ (by decide +kernel)

def keys14 : List Nat := [4409226250543508612457594830845653001699328, 4409226251192545719774448284411965042851840, 4409226253788694149041862098677213207461888, 4409227244543838468218658967652544026771456, 4409228209337498494721317693975393199980544, 4409309956859239267047501278109600441171968, 4409309990284650293865454136774670560526336, 4409310654249611079006537135111888659546112, 4409311119933735578848890068940778186473472, 4409311321135238847073460674497510943752192, 4409311321849559960302067942240903199981568, 4409311323731387276340874488762759108362240, 4409397519753461598380628816399696408870912, 4409480430349698682508201191365081395363840, 4409480777584551097024798849342023411957760, 4409483088805690252339946998979201956052992, 4450978429917605336716805708859386147897344, 4450994748008557497046335273076724804354048, 4450994749955668818996895633775660927811584, 4450994911890427094551832298570515195363328, 4450995543728051067508669345375287257333760, 4450995911732090916164577517474214590808064, 4450996409607568583502701987611133666656256, 4450996572127347611062966521196716463489024, 4450996574796385949843503526048025062408192, 4450997371416545271767994588109995142807552, 4450997409126615327357362823833922096332800, 4450997735201843922864355312027894208790528, 4450997737537490153784867984285569864695808, 4450997739745103674082329486992078496858112, 4450997904998571221034770724905301756084224, 4451063500509335571332671552511244089950208, 4451233641692796040564403239814959974055936, 4451326355345502038446538280357414528090112, 4451334866493608838004301622190366181556224, 4451334866884045222874596277851350768812032, 4451334995327474640399712155103306350329856, 4451335192959273818381588766045322881269760, 4451335199125126337891696574925287272218624, 4451335327634473586628680381055071420416000, 4451336690936917505679359597093513861267456, 4451336859037528300744404070768332519768064, 4451337021621323683616194189129498828472320, 4451337021685340038927719773905082340343808, 4451337653783466210231457962717426911019008, 4451337690778581327292104815997213256712192, 4451338318397464102689394414620957051191296, 4451403782876256509796134927118675858161664, 4451420601699336965078103917745754263781376, 4451421261770075106318066194685100115886080, 4451421264719898053049156011967928474796032, 4451421266313334857536040369649284403953664, 4451421766720944598830053069275868132540416, 4451423887449692756648712597200462598373376, 4451573924059716979027866614422391742267392, 4451658994651447213643732458074249684320256, 4451675111540896105748691416734855583498240, 4451675458775748520265289074711797600092160, 4451675475394647889257376528333576622571520, 4451675475395915539857604757735073325776896, 4451675475399843523602257269347328246939648, 4451675476693989754491311664867697408081920, 4451675476696525055691768123670690814492672, 4451675477922343186112465954918002814091264, 4451675477983824240223535080890592919552000, 4451675477986359541423991539693586325962752, 4451675481167528722696733222749563019853824, 4451675481816565830013586676315875061006336, 4451675642846221577005567548442083239919616, 4451676142285346259725212985325185719599104, 4451676973303838444142822971700945629478912, 4451676974344081935034406587459229513154560, 4451676978496135302677650600231441958699008, 4451677271536389256236984885421328539058176, 4451677303014688961104377383387462534955008, 4451677303988244622079657563736930596683776, 4451677304312763175738084290520086617260032, 4451677304961800283054937744086398658412544, 4451677307233430158663924831568490802446336, 4451678140014590502698887800725416519401472, 4451914206426637917491329989029823510478848, 4451931025322608282286422170242962350407680, 4451931688241123496939101797644651953389568, 4451932686524210905571238967408154757824512, 4451934311000074164343907659111610250690560, 4451999277018368152107195832681681452531712, 4452084347610098386723061676333539394584576, 4452169418201828621338927519985397336637440, 4452187695086770663932179947332476191375360, 4452187727602642385086378210423661760872448, 4452187732730922888309680254178574578221056, 4452188359700768556390116399236006331547648, 4452188391252591996070746202488949113356288, 4452188391255761122571316775992690871369728, 4452188392550666210704453109621573195661312, 4452188393775216690524922711467388492054528, 4452188397406401834878685832054694823854080, 4452188525854268029504600512211888866590720, 4452254488793558855954793363637255278690304, 4452440784510620441668984316447675448819712]
theorem ok14 : (∀ l ∈ enUs14, lineOk l = true) ∧ keysOf enUs14 = keys14 :=
  goodChunk_ok _ _ (by decide +kernel)

def keys15 : List Nat := [4452441442958765814616812959471241198043136, 4452441448862848485179791396942136377081856, 4452442076094464002207356913408637342318592, 4452442111142467797317443405989487564554240, 4452443108063464636004348083844782774812672, 4452509700568749559802390894592829104848896, 4452594771160479794418256738244687046901760, 4452613214198921310125993278567648436682752, 4452614875733916041270834408326473787113472, 4452679841752210029034122581896544988954624, 4452696658303660608707104485041531250540544, 4452696955562655759825986218412446098391040, 4452697986627821515660249825581442145452032, 4452698151413525991128474414342381921894400, 4452698817325598098220117773378536144371712, 4452698983479097571334601886354418679414784, 4452698986724283107918869154185978885177344, 4452699147036448615181672185065053049847808, 4453020124119130967497585956503976757166080, 4494534572883485460040117658610652478963712, 4494551520540431717717497182150671053357056, 4494552532389282024692031292031143210123264, 4494552551535876690539208172237348424122368, 4494552553482988012489768532936284547579904, 4494552683614928029518885972981848798658560, 4494552716464825683833222683367415662772224, 4494552719636487485604252645912167082622976, 4494552883915765546281299588775173928517632, 4494552883920202323382098391680412389736448, 4494552883920322403565909073567077604786176, 4494552885789986958718736758888049617666048, 4494553550079466297518246484008423737262080, 4494553717855558538924864230900086375186432, 4494553880439353921796654349261252683890688, 4494553880838663860868546610732714193584128, 4494554843610421180007179441668321754218496, 4494619643475215694655983502262510421016576, 4494789784658676163887715189566226305122304, 4494882498311382161769850230108680859156480, 4494891470600353709951992330806337751482368, 4494891676345116729394537111327254796828672, 4494892833972518412015224163927098868629504, 4494892833975687538515794737430840626642944, 4494892833980124315616593540336079087861760, 4494892839095094487537499175375276521553920, 4494893132135348441096833460565163101913088, 4494893163687171880777463263818105883721728, 4494893166287123261845561766287844157947904, 4494893168156907897182200133495481385877504, 4494893171402093433766467401327041591640064, 4494893298288847914211317573541045636956160, 4494893333661370262979830792905051879768064, 4494893836016091326224403853230571731812352, 4494893996977293940804060337675957937635328, 4494894162806274860260117723868684452102144, 4494894165077904735869104811350776596135936, 4494894168323090272453372079182336801898496, 4494894461363344226012706364372223382257664, 4495044996433866867735312720521800131280896, 4495061777937313652298208131085936170631168, 4495061814932428769358854984365722516324352, 4495062978980480742135523955546368323354624, 4495063439472308383443049260844761521061888, 4495147548840082681798950372788486516244480, 4495148548106233130908079443412682656448512, 4495149376853095439716702342306350422294528, 4495222780678303100233313604716112627367936, 4495231254506776229072003366486121914564608, 4495231291501891346132650219765908260257792, 4495231586813775175300971592437886984650752, 4495231620949704363546847030641859250618368, 4495231622835334631386338265368205268615168, 4495231954817815023956879764536814318125056, 4495231956469563756054262674687018594729984, 4495233082195270433331328609220829800038400, 4495233281194864608959464744377789089579008, 4495233429430122847847926267197771816632320, 4495233447991696761689775278613248501350400, 4495233451821903050279370415235537236393984, 4495233580655768852674780948148477405167616, 4495234079116267272018233287076125010296832, 4495234114164271067128319779656975232532480, 4495234280317770540242803892632857767575552, 4495234577576765691361685626003772615426048, 4495234743730265164476169738979655150469120, 4495235408344263056934106190883185290641408, 4495470349392518040814641938781089841545216, 4495486466281966932919600897441695740723200, 4495486498800373955274255619335874716631040, 4495486503601600603638674477504638106992640, 4495487130895964825377537349345225880895488, 4495487827312780976361293025998046037540864, 4495487828935373744653426659913826140422144, 4495488792430959556522378479104051231326208, 4495488829426074673583025332383837577019392, 4495555419984248275430507782432947783598080, 4495575524557684522283085452514734523809792, 4495656607465427402151332584745411624828928, 4495656622393280870438962016770588571336704, 4495657309797101253800006648781848937758720]
theorem ok15 : (∀ l ∈ enUs15, lineOk l = true) ∧ keysOf enUs15 = keys15 :=
  goodChunk_ok _ _ (by decide +kernel)

def keys16 : List Nat := [4495657936693423187067205488552471905173504, 4495657972390464089494145434699634168561664, 4495657972714982643152572161482790189137920, 4495658933614420025754110166407767115431936, 4495658969311460928181050112554929378820096, 4495725561167708744662239469736663667703808, 4495733204228684507928508666627260279685120, 4495741844210657109881682541373152101924864, 4495742342671155529225134880300799707054080, 4495742674978154475454103106252564777140224, 4495743044604787092402144912267272213495808, 4495743838052650787255491897083742522441728, 4495743869530950492122884395049876518338560, 4495743870574860761410831307182411607965696, 4495743872127098921390298209315124682948608, 4495744004206150260369976010059625057484800, 4495744536818423500462156654709953718648832, 4495744538762365695912146441905148084092928, 4495744683748001621115541893988332144164864, 4495745167280646572171364800890802802786304, 4495810631759438979278105313388521609756672, 4495980772942899448509837000692237493862400, 4495996922345684760568537763641035556126720, 4495996923906796474749602271584225553547264, 4495996925529389243041735905500005656428544, 4495996926244401126812264415436791623974912, 4495996926244469489149511983487362908815360, 4495996926244474404641894536569587264126976, 4495996926244493972315210818957409058291712, 4495996929099093333284429900114721882767360, 4495997590143387135499672357403535796600832, 4495997591838926758546736309398021693505536, 4495998256704496349908169170006002060230656, 4495999215981340964217573541015198883643392, 4496000246003230276064004350752408192679936, 4496065843534629683125702844344095435915264, 4496085150116942483906959354645227579113472, 4496168194090305121647916437487737022447616, 4496252101607539044462393490308417219198976, 4496252138666036691534451813663038725160960, 4496252766221536936920329942211947359371264, 4496253468479687053755766700961575886389248, 4496254261603032194950686958994890174758912, 4496255092370529560523107523874302849974272, 4496255258524029033637591636850185385017344, 4496406125901550621589166218951527204126720, 4496576267085011090820897906255243088232448, 4496594543969953133414150333602321942970368, 4496595240062250730739479283471986079039488, 4538107033940317743692959172579257466486784, 4538107198795743002173736378422515919224832, 4538107532725334716694838238290061092192256, 4538107534996964592303825325772153236226048, 4538107867628482092191220278507074326888448, 4538108691905608384595106307723366590578688, 4538108691974695342307544810104936915271680, 4538108826580808152842197922733115129724928, 4538109024928196094652910030820020620099584, 4538109024938337299454735866031994245742592, 4538109025215318955604603990259023896117248, 4538109026159718652774634894374067784122368, 4538109026223876133250639012500989796155392, 4538109026230073261087301626157134812020736, 4538109026886082446705410341431678720802816, 4538109027457792867408341801506691866427392, 4538109030442476205645707927330679563485184, 4538109360089310367295736754241612957089792, 4538109362685458796563150568506861121699840, 4538109688896326006294563602660980477132800, 4538109688899495132795134176164722235146240, 4538109689800160884257291165928129862565888, 4538109689864177239568816750703713374437376, 4538109692460325668836230564968961539047424, 4538109693758536056874258863931824525017088, 4538109695056615223268122912585548203819008, 4538109860821438662248176180651352706252800, 4538110191505844840185010772687337673457664, 4538110986576301303330491391419588085284864, 4538111018054601008197883889385722081181696, 4538175786441095817979295452013776752082944, 4538447147557590779774524619945558535045120, 4538447152100850530992498794909742823112704, 4538447478960754848040765282630174219698176, 4538447478964557799841449970834664329314304, 4538447613566233833275304280557604082548736, 4538447649587793289360670953487922366513152, 4538448976868677752325983496596046523400192, 4538448977908927432917763539255704902696960, 4538448977918926274615071555736065129054208, 4538448978815789074276543857294982646857728, 4538449145293807101049454697054021202477056, 4538449275101228564420145410316429432979456, 4538449306579528269287537908282563428876288, 4538449306653052004100775213569372214788096, 4538449478249843154595276376572098313715712, 4538449607408227510649113636268194503065600, 4538449971193526161745474360186093569048576, 4538449971264514595358255206669908948549632, 4538449971579525769514970212941839695085568, 4538449972553081430490250393291307756814336]
theorem ok16 : (∀ l ∈ enUs16, lineOk l = true) ∧ keysOf enUs16 = keys16 :=
  goodChunk_ok _ _ (by decide +kernel)

def keys17 : List Nat := [4538449975412267359305021808367121836539904, 4538449975810943473076799955137834994630656, 4538449978981971449547715802981838062878720, 4538450105868725929992565975195842108194816, 4538450142214803939736359374909316412735488, 4538450272022225403107050088171724643237888, 4538450304861981852619560963345317881708544, 4538450438175724876221534201147607178280960, 4538516068808016756442758826621208520294400, 4538686209991477225674490513924924404400128, 4538787433169697254822255262384550509019136, 4538787765801214754709650215119471599681536, 4538788428143582771558599579540909595820032, 4538789225161150556654640558972096131104768, 4538789424163280033483233152932048827056128, 4538789588946449207751001282889995197087744, 4538789759382706233736558428822489511493632, 4538789889775148449112577010875626271277056, 4538790257130151190451631729408241563598848, 4538790258103706851426911909757709625327616, 4538790258428225405085338636540865645903872, 4538790259077262512402192090107177687056384, 4538790421080473920369453142582853927698432, 4538790425555280539175102929866216242675712, 4538790588203233402522897166354304563412992, 4538790886696145287799481688730921481535488, 4538941421766667929522088044880498230558720, 4539026492358398164137953888532356172611584, 4539042644944887958669852793340124335177728, 4539044935396839679845690428855317562392576, 4539044972458506453418319325713680826368000, 4539111562950128398753819732184214114664448, 4539128382097727407694215449594448540860416, 4539196633541858633369685575836072056717312, 4539298353635311000182691022798864559112192, 4539298356803169850153036297139125869346816, 4539298817944034598777415056003831108206592, 4539298850720408518278514461102589186408448, 4539299680262087753430237194734689862025216, 4539299681487905883850935025982001861623808, 4539299846343331142331712231825260314361856, 4539299847641405356965419138957884396666880, 4539300012496830615446196344801142849404928, 4539300020285275903248437787596887343235072, 4539300179623885749535960638126493446176768, 4539300182869071286120227905958053651939328, 4539300677184352242717370101991481775489024, 4539300679779866846684669801555981588496384, 4539300683340697382725766190360220892397568, 4539300683601199581072667332367793401102336, 4539300844562402195652323816813179606925312, 4539300844632122978664876433895498283220992, 4539300848132106285895017811427895833264128, 4539301181412660893099266217729128965079040, 4539301181476677248410791802504712476950528, 4539301343091353747408100543421649185144832, 4539366774725319102601417263139787940823040, 4539536915908779571833148950443503824928768, 4539553730188600275897143766106397942480896, 4539555394710964675164600296885742089535488, 4539555395363653705597345622263006547148800, 4539621986500509806449014794095361766981632, 4539639266464455010355362543587145411461120, 4539723210976804050230486449687611953905664, 4539723874292727728054715994458518011772928, 4539723875915320496346849628374298114654208, 4539727161665676287917458307829006449246208, 4539809241494416006472610117914978760523776, 4539810272559581762306873725083974807584768, 4539810439356413915037184259319434219356160, 4539810442213064542651499215592254892670976, 4539811272980561908223919780471667567886336, 4539811401489909156960903586601451716083712, 4539962268867430744912478168702793535193088, 4539978422825518488891321285929994565976064, 4540151052019206122467529914404111422324736, 4540151052992761783442810094753579484053504, 4540151517703330622309882848233000949252096, 4581646858815245706686741558113185141096448, 4581664803393188803051025759508498925748224, 4581664969546688276165509872484381460791296, 4581665002396710962423814406277713136451584, 4581665135700187749279993985460263995834368, 4581665167827524561464239936992710032883712, 4581665169774635883414800297691646156341248, 4581665173344339973657494292306362382680064, 4581665500783560615010061616510787144122368, 4581666003787318785571488130402619037319168, 4581666166770424107515170510235246855716864, 4581666169682973917603416812821137483366400, 4581666170589855366002825696944813613514752, 4581748710910422725865502812329179122499584, 4581748747967018897037218791581555573653504, 4581748747979061577739386970895774254104576, 4581749407002720323190831762198843258568704, 4581749411221461520750379210379871526060032, 4581749413197728806506188847313231823241216, 4581749413232589198012465155854391161389056, 4581749873984919037666891603160356867801088, 4581749908059367171801697915391739028307968]
theorem ok17 : (∀ l ∈ enUs17, lineOk l = true) ∧ keysOf enUs17 = keys17 :=
  goodChunk_ok _ _ (by decide +kernel)

def keys18 : List Nat := [4581750372445417457010343942088004472930304, 4581750870905915876353796281015652078059520, 4581750904980364010488602593247034238566400, 4581751405063455198124188566090461946576896, 4581833152260677416791945423441513167192064, 4581833153234233077767225603790981228920832, 4581833153883270185084079057357293270073344, 4581833153912426148889328333591717443796992, 4581833153944751239195148183329883375534080, 4581833154207788738742505784140449290649600, 4581833156154900060693066144839385414107136, 4581833487163824792288327463658526401888256, 4581833817523712416566735328911355348516864, 4581834279962651379824820994908684669681664, 4581834446116150852939305107884567204724736, 4581834478568006218781977786200169262350336, 4581834481874672809477314180004319573573632, 4581834482462228862683098507598041509265408, 4581834482523709916794167633570631614726144, 4581834983843394264952391387574093299580928, 4581835475164484503810455737272308452032512, 4581835941497646110969662124667510020112384, 4581835972975945815837054622633644016009216, 4581835980764391103639296065429388509839360, 4581836306581018976699729755718033168400384, 4581836311773315835234557384248529497620480, 4581836311834796889345626510221119603081216, 4581836475067629379534270082148597952937984, 4581836475330666879081627682959163868053504, 4581836475979703986398481136525475909206016, 4581836476953259647373761316874943970934784, 4581902070590436410534339089068758967255040, 4581918221554333436774104359960747026939904, 4581918223239674909777535349250613938487296, 4581918685940383721982750386657012471562240, 4581918883640636032376951385279850975592448, 4581918889413516865816308079695837372874752, 4581919516707881087555170951536425146777600, 4581919548255901575435116066584877818970112, 4581919548258436876635572525387871225380864, 4581919549484255007056270356635183224979456, 4581919552729440543640537624466743430742016, 4581919552803598103753889044454300568256512, 4581919554352033311932671258382523533623296, 4581919554676551865591097985165679554199552, 4581920047944753426399722695562830830108672, 4581920549001400275010588848755726599847936, 4581920552246585811594856116587286805610496, 4581921012089376345585527968319367962165248, 4581921510549874764928980307247015567294464, 4581921546571434221014346980177333851258880, 4581987141182166645150204932720616909307904, 4582003789308487876099715635407628491816960, 4582004286470912080809461067202652014641152, 4582005118211965107357161812431532751585280, 4582005449545408392610849858033829759942656, 4582005450843482607244556765166453842247680, 4582005453764149590170397306214858027433984, 4582005455777812568632939710492371069173760, 4582006097608960048489023243996402850725888, 4582006280961942865500123876479554476310528, 4582006286478758277693378231793206826106880, 4582006414988105526430362037922990974304256, 4582079854834872643032339973263071463342080, 4582089030342813389702279771999464264302592, 4582089192276937839957102322093570180251648, 4582089196425958254504097153192279771447296, 4582089690047834332776397866607011241656320, 4582089690667715476288002043938899109085184, 4582090156351839976130354977767788636012544, 4582091485579835761046227881574848916357120, 4582157282365627114381936620024332793413632, 4582173431057894265012714803434228709064704, 4582174100925670070116548009840845283917824, 4582174600040276199177766719940791743021056, 4582174728483071791402768482491998972936192, 4582174760285890049928587707241288989409280, 4582174763531075586512854975072849195171840, 4582174764180112693829708428639161236324352, 4582174766127224015780268789338097359781888, 4582175226943570210746220821419646578065408, 4582175725404068630089673160347294183194624, 4582175762399183747150320013627080528887808, 4582175763048220854467173467193392570040320, 4582176256640940968934224904373699866525696, 4582176756399513602911384150433971553959936, 4582176759320180585837224691482375739146240, 4582242352957357348997802463676190735466496, 4582327423549087583613668307328048677519360, 4582412494140817818229534150979906619572224, 4582497564732548052845399994631764561625088, 4582598752213727179566224796944228402855936, 4582598784016545438092044021693518419329024, 4582598784729598900720423060035413972353024, 4582598787586249528334738016308234645667840, 4582598789270323350737940776196604854009856, 4582599450253136098842114107512828662382592, 4582599453822840189084808102127544888721408, 4582599455120914403718515009260168971026432, 4582599582981224545138645361823641078071296]
theorem ok18 : (∀ l ∈ enUs18, lineOk l = true) ∧ keysOf enUs18 = keys18 :=
  goodChunk_ok _ _ (by decide +kernel)

def keys19 : List Nat := [4582600081441722964482097700751288683200512, 4582600112920022669349490198717422679097344, 4582600113244541223007916925500578699673600, 4582600117463282420567464373681606967164928, 4582600118834880370014408586101039835381760, 4582600119085875188859598007597387070046208, 4582600121032986510810158368296323193503744, 4582600611442635968104125778318408741289984, 4582600912209220330054518265630701358415872, 4582601115033316366571222505103214218575872, 4582601948396962161411056884247875058401280, 4582602112278831758916553909741665449410560, 4582602241437216114970391169437761638760448, 4582683856230868441000043499261156464263168, 4582683856294884796311569084036739976134656, 4582683859877265392556545372666423234527232, 4582684523190140299699101897955704582438912, 4582684525063607531017527399345714871926784, 4582685152033453199097963544403146625253376, 4582685184546789619051705348691338788339712, 4582685187145473349519575621759580359360512, 4582685187797045758036885534128885806923776, 4582685189677605423475463851249245012099072, 4582686016875398698805190421513941460975616, 4582686184651490940211808168405604098899968, 4582687145875446876471772900113737045770240, 4582687180984931725692928518667177373466624, 4582760419568714519959266722477934999764992, 4582768931365858426833883517877198694383616, 4582768931690376980492310244660354714959872, 4582769258549013646940348502979289408339968, 4582769258552816598741033191183779517956096, 4582769391857686068141408823175591892090880, 4582769426972377942206517591778867925745664, 4582769558011185541255892936151474427133952, 4582769590787559460756992341250232505335808, 4582769595067922837592087448755189378449408, 4582769595403709121488089706800477227712512, 4582769921796484192352253660069373493116928, 4582769923094558406985960567201997575421952, 4582769923164279189998513184284316251717632, 4582769924392632621619667474334621657726976, 4582769925432876361549969930706515530874880, 4582769926339743943570227835033557781184512, 4582769928286855265520788195732493904642048, 4582770222625183433713829388055004567306240, 4582770237553036902001458820080181513814016, 4582770254103483138581221886021138563203072, 4582770258646742889799196060985322851270656, 4582770259944817104432902968117946933575680, 4582770260333408958644662407169331825737728, 4582770260336024725947672415690193675223040, 4582770260346028519405137573691653498077184, 4582770554932182379942797614006769637392384, 4582770721085681853057281726982652172435456, 4582771053392680799286249952934417242521600, 4582771219546180272400734065910299777564672, 4582771251673517084584980017442745814614016, 4582771256865813943119807645973242143834112, 4582771257190332496778234372756398164410368, 4582771884160178164858670517813829917736960, 4582771916936552084359769922912587995938816, 4582771922201225107291417309215061622915072, 4582772065241531106260784062814889399287808, 4582772084063607218449534216237938592710656, 4582772216467177111087638743765594987823104, 4582772253786810781806712323828537354092544, 4582772881081175003545575195669125127995392, 4582837847099468991308863369239196329836544, 4582845490160444754575132566129792941817856, 4582854993686288641601826410853855517474816, 4582854997905029839161373859034883784966144, 4582855791677412087673147570634510114488320, 4582855957830911560787631683610392649531392, 4582856155536234473582745599839217966383104, 4582856156833190828360977808583608139513856, 4582856158058859168036922108817657345081344, 4582856490041339560607463607986266394591232, 4582856822672857060494858560721187485253632, 4582856954751908399474536361465687859789824, 4582857154655337453065400059889796534763520, 4582857154979856006723826786672952555339776, 4582857156926967328674387147371888678797312, 4582857324054022462764151440697239275569152, 4582922917691199225924729212891054271889408, 4582939699194646010487624623455190311239680, 4582940234711882964107310760366827766808576, 4582940363808643902945561075358720451411968, 4582940395935980715129807026891166488461312, 4582941891966513080477017497240421345001472, 4582942392698641375429456923650161094164480, 4583027459720667519802628772687302809878528, 4583027461083391915047975379296258755657728, 4583027462380198479081454057027386134757376, 4583027462390339683883279892239359760400384, 4583093058874659695156460900194770155995136, 4583109175764108587261419858855376055173120, 4583109207566926845787239083604666071646208, 4583109207891445399445665810387822092222464, 4583109707000980926105971602881781738504192]
theorem ok19 : (∀ l ∈ enUs19, lineOk l = true) ∧ keysOf enUs19 = keys19 :=
  goodChunk_ok _ _ (by decide +kernel)

def keys20 : List Nat := [4583109872893978200873554573850091764842496, 4583109873478998952878882442640820294123520, 4583109875426110274829442803339756417581056, 4583109877697740150438429890821848561614848, 4583110206759553560083130848942053425938432, 4583110504992104372177292762662436335517696, 4583110537507976093331491025753621905014784, 4583110542311738042896366342725378701787136, 4583110542710414156668144489496091859877888, 4583110544583367918505353430207470845820928, 4583111203750271181782588143879667312492544, 4583111535338512237682150299182801665130496, 4583111537639298077096386662899317982887936, 4583112533882101844661188610953876978270208, 4583185772527365693038595940737224710029312, 4583194279781249848695238561172304116580352, 4583194283350953938937932555787020342919168, 4583194283675472492596359282570176363495424, 4583194578662837768106253928458999067312128, 4583194612412767348582633513907225207242752, 4583194910969836714335222154410764137398272, 4583194947964951831395869007690550483091456, 4583195077123336187449706267386646672441344, 4583195440978355621558619608386864414720000, 4583195445521615372776593783351048702787584, 4583195445522883023376822012752545405992960, 4583195607386652865318977831063584294043648, 4583195608035689972635831284629896335196160, 4583195612903468277512232186377236643840000, 4583195613294684564607276631611407679356928, 4583195907890833553022126832266059347656704, 4583196105592353514016556060290394554892288, 4583196277517466169970168638280766784012288, 4583196572504831445480063284169589487828992, 4583196607941511274724580621660517742673920, 4583196738658330918594547397145472022872064, 4583196772732779052729353709376854183378944, 4583196777925075911264181337907350512599040, 4583197237118829337937999736073119628001280, 4583197268665582175217716621720075596988416, 4583197269964924040451651758254196382498816, 4583197269968093166952222331757938140512256, 4583197434779784479725125623249560332664832, 4583197436048702730553583254147760241246208, 4583197437346776945187290161280384323551232, 4583197438397025467476378220420402929205248, 4583197440329058679748442649371067719614464, 4583197569425828284166967962024884698087424, 4583197606745461954886041542087827064356864, 4583279331875422524780780978184268885786624, 4583279348816938971530952814486958874034176, 4583279350372980083311104404824162058633216, 4583279352320091405261664765523098182090752, 4583279352644609958920091492306254202667008, 4583279354591721280870651853005190326124544, 4583279981561566948951087998062622079451136, 4583280018618163120122803977314998530605056, 4583280018623233722523716894920985343426560, 4583280018881200619670161578125564445720576, 4583280480022065368294540336990269684580352, 4583280646175564841409024449966152219623424, 4583280677653864546276416947932286215520256, 4583280678302901653593270401498598256672768, 4583280678364382707704339527471188362133504, 4583280678370720960705480674478671878160384, 4583280679600975868226977308631222338977792, 4583280681292021768931435330227824414949376, 4583280681548087190177537669330158462435328, 4583280682197124297494391122896470503587840, 4583280683495198512128098030029094585892864, 4583280683564285469840536532410664910585856, 4583281678469084028864442347185453672693760, 4583281678793602582522869073968609693270016, 4583282173104446762019212467096799355600896, 4583282180823805092109015407510973524738048, 4583282473864059045668349692700860105097216, 4583282671569381958463463608929685421948928, 4583282672469413884625506483992344697765888, 4583282675065562313892920298257592862375936, 4583283485712909352642883802581332261863424, 4583348270649850399004058431150343982153728, 4583433341241580633619924274802201924206592, 4583450157861484345705230565628010158882816, 4583450158471224284415008907747924400668672, 4583450159769298499048715814880548482973696, 4583450159813089389998396856724830103273472, 4583450822436185069556091906085142499688448, 4583450823380584766726122810200186387693568, 4583450825003177535018256444115966490574848, 4583451821339153621699833253180533171552256, 4583451821345491874700974400188016687579136, 4583451821924174373705161121971261700833280, 4583518411833310868235790118454059866259456, 4583621925463482618559392502428879198093312, 4583688553016771337467521805757775750365184, 4583789777493065581248993461350025937289216, 4583791069725946249104219511877299871940608, 4583792102417507725031301441166566131499008, 4625203001781125830010053507864451472162816, 4625219487648170231746200818973452766543872]
theorem ok20 : (∀ l ∈ enUs20, lineOk l = true) ∧ keysOf enUs20 = keys20 :=
  goodChunk_ok _ _ (by decide +kernel)

def keys21 : List Nat := [4625221610973066818832274161163295396986880, 4625543284148046768473516882471883240374272, 4625562262966620374243779341785434601553920, 4625562429511315089472640048530814887002112, 4625562429521331262330498060335023701098496, 4625563056414484069097126326601904910499840, 4626412599257290103454395972289306585726976, 4626921062391088860593734537154933936881664, 4668766787807981716599634654506314415210496, 4668775427789954318552808529252206237450240, 4668776258557451684125229094131618912665600, 4668776628184084301073270900146326349021184, 4668777089324949049697649659011031587880960, 4668844215338736187949231301267575745282048, 4669116042463874203245240129811403075747840, 4669116208617373676359724242787285610790912, 4669116540924372622588692468739050680877056, 4669117405766318122295919345849845516599296, 4669117736450724300232753937885830483804160, 4669118368612866826848017711473758566350848, 4669118534766366299962501824449641101393920, 4669118572439674488145251407530163661963264, 4669118740186610765746619878187402126163968, 4669184497705657126412694675875007513493504, 4669354638889117595644426363178723397599232, 4669439709480847830260292206830581339652096, 4669447352541823593526561403721177951633408, 4669456158677295668594219391442952308916224, 4669457689106794721734662900806745346539520, 4669457690080350382709943081156213408268288, 4669457820212290399739060521201777659346944, 4669458001293643341141174066202837140897792, 4669458018881661594007742897268845763887104, 4669458019215196064972285048594092106186752, 4669458019791200899671497492842730313744384, 4669458318672788819082512860129425264476160, 4669458817133287238425965199057072869605376, 4669458850883216818902344784505299009536000, 4669609850664308299492023894134297223757824, 4669694921256038534107889737786155165810688, 4669711742026230311340419089112169694887936, 4669715025829474780960467407867941906022400, 4669779991847768768723755581438013107863552, 4669881881262579458621590415716949455536128, 4669883505477940519047357965412832439697408, 4669969074530169173006676147992337986879488, 4669969274433598226597539846416446661853184, 4669969572990667592350128486919985592008704, 4670223823541902359937761286167426471297024, 4670290415398150176418950643349160760180736, 4670306864594598014752877827961531729444864, 4670308359976093272783234844744474544832512, 4670310519971586423271528313430947500392448, 4670375485989880411034816487001018702233600, 4670630697765071114882414017956592528392192, 4712331604893031280722224146608941537689600, 4712331606777393897961487151933790852481024, 4712331770983782049125410904210737264066560, 4712331935839207307606188110053995716804608, 4712331942329578380774722645717116128329728, 4712332437220372709875480990030047507120128, 4712333434465888102220812394668498737954816, 4712333597049683485092602513029665046659072, 4712333597118136617504926900710487019749376, 4712333597447725773564266545099629853147136, 4712333602305996698938955726335744887750656, 4712334262637237038525819145282663248560128, 4712334263286274145842672598848975289712640, 4712334428141699404323449804692233742450688, 4712334593066845445816779627617810871484416, 4712334594363781993554383270277802658627584, 4712334595668064477485106359489045848915968, 4712334893825823904165802738521123269378048, 4712334925304123609033195236487257265274880, 4712400358304616311272543251018842076348416, 4712417840119101890720315059633670519259136, 4712485428896346545888409094670700018401280, 4712502210399793330451304505234836057751552, 4712502875013791222909240957138366197923840, 4712570499488076780504274938322557960454144, 4712587280991523565067170348886693999804416, 4712587318050655037439342786942063857369088, 4712587318053190338639799245745057263779840, 4712587945605521457525106800790224139976704, 4712587982925155128244180380853166506246144, 4712589440987016715555463817573166955364352, 4712589475061464849690270129804549115871232, 4712671686969255907225099740635021801684992, 4712671887197203514474390165842286497234944, 4712672555380905497175020612360532863746048, 4712672698818106214199633850515493958451200, 4712672717315663772729957277155387131297792, 4712673712363073024279538899598555004010496, 4712673712363203247350976148223996003876864, 4712673861892602526001022641346671703752704, 4712673879092085869897639160853940794294272, 4712673879770278941019741890654677009170432, 4712673884608901282090893516167593144090624, 4712674213021677584418741020721485967261696, 4712674216266863121003008288553046173024256]
theorem ok21 : (∀ l ∈ enUs21, lineOk l = true) ∧ keysOf enUs21 = keys21 :=
  goodChunk_ok _ _ (by decide +kernel)

def keys22 : List Nat := [4712674543119161534449905399864497350377472, 4712674544355120869672429066323782975619072, 4712674545004157976989282519890095016771584, 4712674545653195084306135973456407057924096, 4712674547600306406256696334155343181381632, 4712674677732246423285813774200907432460288, 4712674709929937843782726457516420497408000, 4712674714402842986688033900697537757577216, 4712674715051880094004887354263849798729728, 4712674715081036057810136630498273972453376, 4712675207671044547496658611094689033486336, 4712675209041431791585181721605270558212096, 4712675209041494926527185275999290413547520, 4712675209041517209447892412844238597783552, 4712675674653243261972718452056202642718720, 4712675707429617181473817857154960720920576, 4712740640671537249736006625626273844559872, 4712759582170477184787195504876882839470080, 4712825711263267484351872469278131786612736, 4712841828152716376456831427938737685790720, 4712841865147831493517478281218524031483904, 4712842530086347939633841459905210192232448, 4712844154301709000059609009601093176393728, 4712910781854997718967738312929989728665600, 4713012002761587872506515973907523689250816, 4713012004708699194457076334606459812708352, 4713012006397994647945984828494354527027200, 4713012006655810516407636695305395936165888, 4713012007050683678378730153871618984640512, 4713012169564124452937853540449718265446400, 4713012335787978534365004385208667828387840, 4713012337736991332215907090009849006653440, 4713012338962809462636604921257161006252032, 4713012339316483980100280924274741200551936, 4713012339611846569953458374823473047404544, 4713012340909920784587165281956097129709568, 4713012499274974969899407952136235170922496, 4713012500645305268746123935154171335933952, 4713012501871123399166821766401483335532544, 4713012832952304214975092161105936406020096, 4713012833204566684420509812003780343889920, 4713012835151678006371070172702716467347456, 4713012997809122156000065419758456373510144, 4713013000007103264851847378545974920085504, 4713013003313769855547183772350125231308800, 4713013630871171576833404245001278920327168, 4713013797024671049947888357977161455370240, 4713013995049441914000516083383155979976704, 4713013997252618657197178783184426150920192, 4713013999199729979147739143883362274377728, 4713013999524248532806165870666518294953984, 4713014160809969701044249081895060521353216, 4713014162108043915677955989027684603658240, 4713014162169524969789025115000274709118976, 4713014163406118130311662896160308685963264, 4713014164119312718104520467853542739148800, 4713014328910580496109293555569879179853824, 4713014627792168415520308922856574130585600, 4713014996445245371493070548521813505212416, 4713015126252666834863761261784221735714816, 4713015141180520303151390693809398682222592, 4713015160389983753893675611276355919937536, 4713015160390006036814382748121304104173568, 4713015491408295784806837968720056966709248, 4713016123173663673550665939639516945973248, 4713080923038458188199470000233705612771328, 4713182110519637314920294802546169454002176, 4713182145567641110030381295127019676237824, 4713182148163789539297795109392267840847872, 4713251064221918657431201687537421496877056, 4713267219729075434888941133393593844629504, 4713267845725365441994097098101557536227328, 4713267877203665146861489596067691532124160, 4713267877852702254178343049634003573276672, 4713267879150776468812049956766627655581696, 4713267880773369237104183590682407758462976, 4713267881422406344421037044248719799615488, 4713267883369517666371597404947655923073024, 4713268510339363334452033550005087676399616, 4713268546036404236878973496152249939787776, 4713268546097885290990042622124840045248512, 4713269507260360173138938227860382886658048, 4713269544005244280358634739273434757332992, 4713269545302554685988102566776446079991808, 4713269545878068058491718715055949335232512, 4713336134813648892047067531189279438929920, 4713352953961247900987463248599513865125888, 4713353616693418477406593153981188096917504, 4713354610303945773597476749827842886336512, 4713354613549131310181744017659403092099072, 4713421205405379126662933374841137380982784, 4713513919058085124545068415383591935016960, 4713522590586810563777959175776439726243840, 4713522759268005333747532715336748452806656, 4713523223654055618956178742033013897428992, 4713523423944751930916766522614365401645056, 4713523425829114548156029527939214716436480, 4713523427776225870106589888638150839894016, 4713524419577181934471676013848261803638784, 4713524586307462430690004504505144297127936]
theorem ok22 : (∀ l ∈ enUs22, lineOk l = true) ∧ keysOf enUs22 = keys22 :=
  goodChunk_ok _ _ (by decide +kernel)

def keys23 : List Nat := [4713524586956499538006857958071456338280448, 4713524587033826224620779951562755233808384, 4713524751487406242829208437131558770442240, 4713524917994580233407368553125021499785216, 4713524919263498484235826184023221408366592, 4713524920561572698869533091155845490671616, 4713525248974349001197380595709738313842688, 4713525249048010147354978578207060902543360, 4713525251634513785776319994750569990324224, 4713525253591766312528706190661479739424768, 4713525398577402237732101642744663799496704, 4713525416499446423758808921105053717102592, 4713525419742225659357256239664433429741568, 4713525419742225697466753756422470304268288, 4713525421293700993821972517565585239834624, 4713525581281347947426348821661503383928832, 4713525751716971148111791852893249346732032, 4713525753600699940050940743517350309920768, 4713525882110047188787924549647134458118144, 4713591346588839595894665062144853265088512, 4713607495281106746525443245554749180739584, 4713608658031084504668405309602770905464832, 4713608660627232933935819123868019070074880, 4713608828468609181254190684936761923076096, 4713608830350436497292997231458617831456768, 4713609291166782692258949263540167049740288, 4713610288087779530945853941395462259998720, 4713761487772300065126396749448569149194240, 4713846558364030299742262593100427091247104, 4713863007560478138076189777712798060511232, 4713863339867477084305158003664563130597376, 4713864037257848896264193860666851348971520, 4713931628955760534358128436752285033299968, 4713947779270620453281040254077961051832320, 4713947781606266684201552926335636707737600, 4713948410459207318921023847316421072650240, 4713948446156248221347963793463583336038400, 4713948447515803490092739826568797523804160, 4713948942994153872399282498475450838286336, 4713949107922525985634990022397415085047808, 4713949112392838882098033879282893579091968, 4713950570454700469409317316002894028210176, 4713951068915198888752769654930541633339392, 4713951105971795059924485634182918084493312, 4714032816436939661078953239064748874530816, 4714033019585554251254084205320417755267072, 4714033182493868187784301050464740084547584, 4714033182818386741442727777247896105123840, 4714033516747978455963829637115441278091264, 4714033647204437026651373803944161549746176, 4714034178116790811837498821187411212500992, 4714034841757233043320155092741473290944512, 4714034844353381472587568907006721455554560, 4714034846005130204684951817156925732159488, 4714034846042645977575495266387743691767808, 4714035142585932284681730820727104365133824, 4714035179581047401742377674006890710827008, 4714035308739431757796214933702986900176896, 4714035844519563847858740852693576871575552, 4714035844908098756828693164252316404023296, 4714035973353429650254151385606517040349184, 4714118587339708690579695480767299220144128, 4714118589286820012530255841466235343601664, 4714186840730951238205725967707858859458560, 4714356981914411707437457655011574743564288, 4714373098803860599542416613672180642742272, 4714373264957360072656900726648063177785344, 4714375125422228196417325374481529141460992, 4714375294820913206116076755288971882266624, 4714376089566851115603130647238066273517568, 4714376122343225035104230052336824351719424, 4755871430678766199979989357118250465361920, 4755887713721714565199432428754738899582976, 4755887911353513743181309039696755430522880, 4755887913691831692909615124742756687151104, 4755887914923217833424003034311471656861696, 4755888578633380847919211922947852411600896, 4755888580186252833198792939781313838186496, 4755888710642711403886337106610034109841408, 4755888909248066242843493897901518702510080, 4755889407708564662186946236829166307639296, 4755889409396441436390833684922026625597440, 4755889409400878213491632487827265086816256, 4755889410371264747966342094672991390531584, 4755889412977554382035581744150213180784640, 4755889741699637430819117222669301586067456, 4755889741711046286221171287282771914915840, 4755889741715483063321970090188010376134656, 4755890039870707188802210010417094390185984, 4755890406322000195343680393636209181589504, 4755890406329480955779906542091540516306944, 4755890407302402791455072607740260226433024, 4755890410470895466725531996781269888270336, 4755890570522558775641433885652771544236032, 4755890571107579527646761754443500073517056, 4755890575975357832523162656190840382160896, 4755890737261079000761245867419382608560128, 4755890738234634661736526047768850670288896, 4755890738632043124908075965138067125174272, 4755890738636599982192685449929970801442816]
theorem ok23 : (∀ l ∈ enUs23, lineOk l = true) ∧ keysOf enUs23 = keys23 :=
  goodChunk_ok _ _ (by decide +kernel)

def keys24 : List Nat := [4755956501270496434595855200770108407414784, 4755972655804097551078314466276812693438464, 4755973982435944906726773555818624809172992, 4755973983150266019955380823562017065402368, 4755973985681130443311040823650185014935552, 4756041571862226669211721044421966349467648, 4756219356106662901709721928616278845554688, 4756228328395634449891864029313935737880576, 4756228343323487918179493461339112684388352, 4756228362531563638137739467517908003848192, 4756228362534098939338195926320901410258944, 4756228367662379442561497970075814227607552, 4756228826856132869235316368241583343009792, 4756229693714910473905656223133632978485248, 4756229695267782459185237239967094405070848, 4756229823777129707922221046096878553268224, 4756229859798689164007587719027196837232640, 4756229989930629181036705159072761088311296, 4756230021408928885904097657038895084208128, 4756230021471677590615395012412981892874240, 4756230022446500902190903422163946657808384, 4756230022707003100537804564171519166513152, 4756230024005077315171511471304143248818176, 4756230027250262851755778739135703454580736, 4756230027324420411869130159123260592095232, 4756230027574781405414205465918859475156992, 4756230027638797760725731050694442987028480, 4756230191781169556578129218195805886742528, 4756230691925741798324784317011823700213760, 4756230820698126546609125723952173763526656, 4756230858408830427498608074376849068654592, 4756231018329925724591002334894190294466560, 4756231018398378857003326722575012267556864, 4756231019627999939224709242026814376771584, 4756231020668107256711971465954859356782592, 4756231023846741136784256690207842644262912, 4756231023913415349360127986433634575843328, 4756231023913417825240206557194184374091776, 4756231023923433998098064568998393188188160, 4756231319158624965952578062879821368655872, 4756296783637417373059318575377540175626240, 4756466924820877842291050262681256059731968, 4756559638473583840173185303223710613766144, 4756568112302056969011875064993719900962816, 4756568642240855093222719901887501501988864, 4756568644187966415173280262586437625446400, 4756569109223053807698779742849015111221248, 4756569974126480361517075745932400052404224, 4756569974129015662717532204735393458814976, 4756569975038554968381286800309278008672256, 4756570303775849824367561031646326852419584, 4756570304749405485342841211995794914148352, 4756570305137940394312793523554534446596096, 4756570305791414278730445780026084948967424, 4756570305791544262434570744954949357010944, 4756570305791564069475199311039347742998528, 4756570309941702343877668840526291243368448, 4756570310266220897536095567309447263944704, 4756570476095201816992152953502173778411520, 4756571103065047485072589098559605531738112, 4756571135913734434028504707036321052360704, 4756571138113051280182675591140455753973760, 4756571140775751365962071448984280836866048, 4756571140781605584407852012304278795321344, 4756571302968476538663452796983714206711808, 4756572266139543796873977889390783277039616, 4756722136596068546138647793636829885890560, 4756807207187798780754513637288687827943424, 4756892277779529015370379480940545769996288, 4756908431740785885849793171671488558792704, 4756977348371259249986245324592403712049152, 4756993465260708142091204283253009611227136, 4756994830185744829434017133207232154959872, 4756995791409700765693981864915365101830144, 4757062418962989484602111168244261654102016, 4757078905154552439996685206136418969059328, 4757078905216177349602862266203120777297920, 4757079034312936796050522465832515158409216, 4757079568794994671479341477690481047502848, 4757079902400067832342016610774870199894016, 4757079902464084187653542195550453711765504, 4757080197387433107851911256663692903710720, 4757080396390340011025175069436282249674752, 4757080562470805973581978887714216051998720, 4757080728697829181509700305976907372953600, 4757080729337358909324842039031994140065792, 4757080729983860715441239033795312774807552, 4757080729995404506307575204858747108196352, 4757080729995413171887850202520671402065920, 4757080729999706347944091901314021564874752, 4757080731937944115693054656202480765894656, 4757080735143832483670246812587643172290560, 4757081360461929419653300047494870649012224, 4757081391969385088325941821695428818632704, 4757081526615428892767784160470753184055296, 4757081559468495673582691444360061806182400, 4757081562961506902511577560184227488595968, 4757081726518857946358647858894861859028992, 4757081892023320312156278518304432352919552, 4757081896242061509715825966485460620410880]
theorem ok24 : (∀ l ∈ enUs24, lineOk l = true) ∧ keysOf enUs24 = keys24 :=
  goodChunk_ok _ _ (by decide +kernel)

def keys25 : List Nat := [4757082025075927312111236499398400789184512, 4757147489554719719217977011896119596154880, 4757163643500764782494651949809101946486784, 4757163643500886100618501917076042060660736, 4757163643505835384895564867415088759308288, 4757164308702318728158372729306354022350848, 4757164801069854537504840449940097670840320, 4757164935672164396238808874363785775677440, 4757164967150464101106201372329919771574272, 4757164968521428225253031470048604288188416, 4757164971369205298665748820510948039065600, 4757164972667279513299455727643572121370624, 4757164972991798066957882454426728141946880, 4757165969654828008498342449077444249911296, 4757165969979490407404341842127581859545088, 4757165970634721922474763776434395827666944, 4757165970886350566620067312631491413934080, 4757166800355773717558780970378280006844416, 4757167594128155966070554681977906336366592, 4757317630738180188449708699199835480260608, 4757402701329910423065574542851693422313472, 4757419981293855626971922292343477066792960, 4757420147447355100086406405319359601836032, 4757487771921640657681440386503551364366336, 4757572842513370892297306230155409306419200, 4757590818641869777741992005402169169674240, 4757590824735466213039090738396821477916672, 4757590824802017869551072781975398396198912, 4757590953244813461776074544526605626114048, 4757591119398312934890558657502488161157120, 4757591451705311881119526883454253231243264, 4757592282472809246691947448333665906458624, 4757742983696831361529037917459125190524928, 4799427573644646323303301306869516796428288, 4799443856687594688522744378506005230649344, 4799443894656265466558671412135259638071296, 4799444037768947629924857923507064712200192, 4799444054319393866504620989448021761589248, 4799444060485246386014728798327986152538112, 4799444720303779003051080551862133426487296, 4799445352069089946553101395288948046036992, 4799445552297037553802391820496212741586944, 4799445552358518607913460946468802847047680, 4799445555866741644045085815110928967925760, 4799445718524060761730113238758904062541824, 4799445850529588365896553734216595651166208, 4799445882723476834592781729327618606497792, 4799445884677560234844597351734786597584896, 4799445885253073607348213500014289852825600, 4799446547270923070538736137652571828387840, 4799446547919960177855589591218883869540352, 4799446549218034392489296498351507951845376, 4799446550191590053464576678700976013574144, 4799446550516108607123003405484132034150400, 4799446681297085731468974299096008326381568, 4799446713424422543653220250628454363430912, 4799446719007789612358456649520683631509504, 4799446847450585204583458412071890861424640, 4799446878997338041863175297718846830411776, 4799446883541361897063288538282162506432512, 4799447013604084677697942525047773396467712, 4799447050987734703728541689886299274608640, 4799447051248236902075442831893871783313408, 4799447212533958070313526043122414009712640, 4799512644236376557919167150521374738481152, 4799613868712670801700638806113624925405184, 4799614533680343211622251261034735259877376, 4799615026270351701308773241631150320910336, 4799615027638780524255146880546841431113728, 4799615028934953262988511443577220458610688, 4799615028939390040089310246482458919829504, 4799615196642592371982804802788061123444736, 4799615198589703693933365163486997246902272, 4799616195907595250675516325897425775493120, 4799616656327046727586221873423841675444224, 4799617154787545146929674212351489280573440, 4799698936383734053390664108717078682271744, 4799698938006326821682797742632858785153024, 4799699566923283811713794248389226661937152, 4799699604316498162487912261231623173832704, 4799700263340099962697549925042046818582528, 4799700264638174177331256832174670900887552, 4799700269181433928549231007138855188955136, 4799700271128545250499791367837791312412672, 4799702257506612193729786007535793259675648, 4799702262374390498606186909283133568319488, 4799702590462648247275607687053870370914304, 4799775499072543025033033878367545176621056, 4799784009896131270932370493417340809510912, 4799784139054515626986207753113436998860800, 4799784177023186405022134786742691406282752, 4799784305208015100100691866089319533903872, 4799784339931500341552351631887013735563264, 4799784471361514573215175979065202068946944, 4799785001373836432239258121245792455884800, 4799785001373966701249876515227142094585856, 4799785002598386912059727723091607752278016, 4799785832067810062998441380838396345188352, 4799785834741285178879777188594943405326336, 4799786000817457965380339308079527044841472]
theorem ok25 : (∀ l ∈ enUs25, lineOk l = true) ∧ keysOf enUs25 = keys25 :=
  goodChunk_ok _ _ (by decide +kernel)

def keys26 : List Nat := [4799786002764569287330899668778463168299008, 4799786132896509304360017108824027419377664, 4799786165672883223861116513922785497579520, 4799786299050008777474501221799909954420736, 4799786501225067706674352007706110773428224, 4799786631357007723703469447751675024506880, 4799786797510507196817953560727557559549952, 4799786829050921781096529299367030012510208, 4799786829061062985898355134579003638153216, 4799786830286881116319052965826315637751808, 4799786831584955330952759872958939720056832, 4799786834505622313878600414007343905243136, 4799786963664006669932437673703440094593024, 4799786978591860138220067105728617041100800, 4799787000010084679676231073416914399133696, 4799787001308158894309937980549538481438720, 4799787002281714555285218160899006543167488, 4799787163954702981893025454284791598809088, 4799787462124505089275890012631087699722240, 4799787494900879008776989417729845777924096, 4799787628278004562390374125606970234765312, 4799852926603297496382630525128806506692608, 4799954145887294881629274552190560364396544, 4799954813746478310671478271925650710331392, 4799954814459531773299857310267546263355392, 4799954815757605987933564217400170345660416, 4799954815760141289134020676203163752071168, 4799955308637272639772236616238582089121792, 4799955475115290666545147455997620644741120, 4799955479009513310446268177395492891656192, 4799955480956624632396828538094429015113728, 4799955973251270532230173068142112229294080, 4799956478526658578400586669516036266524672, 4799957138597396719640548946455382118629376, 4799957437154466085393137586958921048784896, 4799957472526988434161650806322927291596800, 4799958101768463977851074038862451188957184, 4800023067786757965614362212432522390798336, 4800039184676206857719321171093128289976320, 4800039216479025116245140395842418306449408, 4800039849290204750177257622996658430148608, 4800124255267937092335187014744986232029184, 4800124290964977994762126960892148495417344, 4800124291614015102078980414458460536569856, 4800124452899736270317063625687002762969088, 4800124456469440360559757620301718989307904, 4800124753728435511678639353672633837158400, 4800124787802883645813445665904015997665280, 4800124956877050101853770319928302717894656, 4800125120109882592042413891855781067751424, 4800125120172751657408312079710501623300096, 4800125289184049048082738545880067787980800, 4800125916802931823480028144503811582459904, 4800126249109930769708996370455576652546048, 4800126283261705590457724676178257708580864, 4800126415263430242823480483431459187589120, 4800126448068960126129829164764641439514624, 4800126448688841269641433342096529306943488, 4800126581416929715937964596407341722632192, 4800127260958781076683530480336048809312256, 4800127283736560886884470481129560355110912, 4800127412184427081510385161286754397847552, 4800127445934356661986764746734980537778176, 4800127446329229823957858205301203586252800, 4800127448278242621808760910102384764518400, 4800127449179542198571032014566540743540736, 4800193208970218434846093899736238274904064, 4800278279561948669461959743388096216956928, 4800295098130865179398168739015085629898752, 4800295098709547678402355460798330643152896, 4800295761376434248909731552002924659867648, 4800296224139891765826243944783410001608704, 4800363350153678904077825587039954159009792, 4800448420745409138693691430691812101062656, 4800465202248855923256586841255948140412928, 4800465239893008147634087148102046527258624, 4800533491337139373309557274343670043115520, 4800550272840586157872452684907806082465792, 4800550969001336887610106022458292191625216, 4800550975747773382024742897223746650636288, 4800634880019821768254952682212866641625088, 4800634880083838123566478266988450153496576, 4800635046173321241369436795188749176668160, 4800635177278816919373834415583781489475584, 4800635343432316392488318528559664024518656, 4800635675739315338717286754511429094604800, 4800635708515689258218386159610187172806656, 4800636045432499612177310604104713449242624, 4800636540581260838424513631622223930327040, 4800636542593786428043891282791814859325440, 4800636706797509016250295099972193274036224, 4800636706812086998152919738089405360898048, 4800636708681871633489558105297042588827648, 4800636711927057170073825373128602794590208, 4800636838813811650518675545342606839906304, 4800636870357395361297821857485821050880000, 4800636872888259784653481857573989000413184, 4800636872965586471267403851065287895941120, 4800637171120810596747643771294371909992448, 4800637207210953168949459796834376575090688]
theorem ok26 : (∀ l ∈ enUs26, lineOk l = true) ∧ keysOf enUs26 = keys26 :=
  goodChunk_ok _ _ (by decide +kernel)

def keys27 : List Nat := [4800637534968224127255187735885609433038848, 4800637534978515122801767102110845852712960, 4800637701708645828275342061754465552171008, 4800637702357682935592195515320777593323520, 4800637707225461240468596417068117901967360, 4800637867213108194072972721164036046061568, 4800638001888307962320064336173784585207808, 4800638037585348864747004282320946848595968, 4800638200886634487347972241929247171543040, 4800638369243310703659119054706399877529600, 4800703632520599842541288961647385927221248, 4800721078638044519562120824115052106743808, 4800722606858662401804874601370839808999424, 4800788703112330077157154805299243869274112, 4800873773704060311773020648951101811326976, 4800893213663498666167661867129358411366400, 4800958844295790546388886492602959753379840, 4800974992988057697019664676012855669030912, 4800974998895943319383327801688240957685760, 4800975293492238384722813677215330722643968, 4800975625799237330951781903167095792730112, 4800975663118871001670855483230038158999552, 4800976322865090589252391033386227990528000, 4800976323838646250227671213735696052256768, 4800976788873733642753170693998273538031616, 4800976955027233115867654806974156073074688, 4800977319461568874280868984458367180210176, 4800977486264105454712206551000561756405760, 4800977487562179669345913458133185838710784, 4800978149642277709471862157514495376752640, 4801043914887520781004752336254817695432704, 4801060063579787931635530519664713611083776, 4801060733458972592141417790684800514785280, 4801061361004965458025584198722483874955264, 4801061392807783716551403423471773891428352, 4801061393853595461739692679706554035863552, 4801061394105857931185110330604397973733376, 4801061396766022715764049729645229650214912, 4801061396767290366364277959046726353420288, 4801061397351043467769377598435958179495936, 4801062892476607255952297216258382741110784, 4801063022539960189170425328481309225385984, 4801063390283497839479432358572664050155520, 4801145102368699907725577138567281536663552, 4801145600829198327069029477494929141792768, 4801145802679738702610453536617973940224000, 4801145966301106101769049420104191822528512, 4801146467293736595068389988521504080396288, 4801146469240847917018950349220440203853824, 4801147096210693585099386494277871957180416, 4801147128987067504600485899376630035382272, 4801147130285141719234192806509254117687296, 4801147262364193058213870607253754492223488, 4801147428517692531328354720229637027266560, 4801148296280305013961422138388836048175104, 4801214056070981250236484023558533579538432, 4801299126662711484852349867210391521591296, 4801487378577614523562849868885303725391872, 4801487877038112942906302207812951330521088, 4801554338437902188699947398165965347749888, 4801570455327351080804906356826571246927872, 4842983716610526446626613256620783127494656, 4843000331960473758075024554209036631801856, 4843001694037733372005120053700915424657408, 4843002690561321747520474814186994180030464, 4843002857039339774293385653946032735649792, 4843002861971134434481312140468956556165120, 4843003024490913462041576674054539352997888, 4843084935894523831873257283682536985198592, 4843084941086820690408084912213033314418688, 4843085603753707260915461003417627331133440, 4843086233319701358263310962740307249070080, 4843086269016742260690250908887469512458240, 4843086269082026266602004723064549727535104, 4843087728701196616293667979523250064457728, 4843088262209698830747206811031747891822592, 4843170639297433700421240354488635050950656, 4843171137757932119764692693416282656079872, 4843171170607829774079029403801849520193536, 4843171337012324066038702938274079289901056, 4843171338959435387989263298973015413358592, 4843171833919316674802460145667517116841984, 4843172333284283797408754162563062459006976, 4843172830833975260488223676515328811073536, 4843172830844880569272188577326433824669696, 4843172832069300770410633228273866084712448, 4843172833440898719857577440693298952929280, 4843173167693861417620688479829168658317312, 4843173332862910119474141780656195939336192, 4843173334812556742625158600158125469204480, 4843255576575420911435132960338203696431104, 4843256406630498639679288601576469170225152, 4843256410524721283580409322974341417140224, 4843257371424158666181947327899318343434240, 4843257408419273783242594181179104689127424, 4843258400546072997108142390066513736368128, 4843258400546158414970853081305481775939584, 4843341943555390481454360832623528680357888, 4843342309287800454501281917240363869798400, 4843342940476387320141265510478823890616320]
theorem ok27 : (∀ l ∈ enUs27, lineOk l = true) ∧ keysOf enUs27 = keys27 :=
  goodChunk_ok _ _ (by decide +kernel)

def keys28 : List Nat := [4843343304261685971237626234396722956599296, 4843343605090385212599201962382354030788608, 4843426515686622296726774337347739017281536, 4843426553394790876415800228969420915998720, 4843426553404298255917511949480646190039040, 4843510294045471863487414130472323024683008, 4843510294761206704240885302489650080776192, 4843510294764863579116934315821702093733888, 4843510921664354638884703729096066819162112, 4843510957425411896623169260018812594421760, 4843510957685914094970070402026385103126528, 4843510958659469755945350582375853164855296, 4843511619054726450843739586098355037536256, 4843511623597986202061713761062539325603840, 4843511623922504755720140487845695346180096, 4843512084738850950686092519927244564463616, 4843512124005595943355726460689123054190592, 4843512451197624717663789051601690690584576, 4843513117681407245458363870712858058686464, 4843513614194794342851255848941569540358144, 4843514244734344101174385988613717520023552, 4843514280431385003601325934760879783411712, 4843579210752638088937674162183788721864704, 4843595359444905239568452345593684637515776, 4843664281344368323553540005835646663917568, 4843680763390079990901689786132836145692672, 4843680929542945638716059784407970329133056, 4843681262102207054390445661257579337089024, 4843681395154814054345403642351547773353984, 4843682258772209074232160917616527312683008, 4843682591654721392964745291847795638009856, 4843682595937620071000296858155745917534208, 4843683424369330080487726217426144436682752, 4843683425088087970817132288074775154130944, 4843683426705112484812560281514058996252672, 4843683587998937208547805592022090889822208, 4843749351936098558169405849487504605970432, 4843834422527828792785271693139362548023296, 4843851239728316479775107049850660850761728, 4843851901421647389307202960705786805747712, 4843935610009007919506096495451826389254144, 4843935645706048821933036441598988652642304, 4843935647401531499738293266100829189832704, 4843936108469506338849548834379473994383360, 4843936141245880258350648239478232072585216, 4843936311618120929024679800635142875119616, 4843936312005388187394403882792385704361984, 4843936312267158036341533254201454916272128, 4843936474850953419213323372562621224976384, 4843936939237003704421969399258886669598720, 4843936970715303409289361897225020665495552, 4843936971428356871917740935566916218519552, 4843936971718015034069891353808912900947968, 4843936972337896177581495531140800768376832, 4843936974285007499532055891839736891834368, 4843936974999328612760663159583129148063744, 4843936975258563160507336072189204953563136, 4843936976585793338946292255556253209591808, 4843936976622555206352910908199657602547712, 4843936976945172284110995290880568568315904, 4843936976947844996655812426894075777515520, 4843936977530193036116323159671297097596928, 4843937471835966613211753635193499947106304, 4843937969650114255123601795751366610649088, 4843937973153115660169520930393968225550336, 4843938137359503811333444682670914637135872, 4843938766925497908681294641993594555072512, 4843938964881815640321597979718767106588672, 4843938968515536085875817559109066844798976, 4843938968776038284222718701116639353503744, 4843938970398631052514852335032419456385024, 4843939099232496854910262867945359625158656, 4843939597692995274253715206873007230287872, 4844020714350667734598341924551910471237632, 4844020715648741949232048831684534553542656, 4844020718311593063696237505921897329590272, 4844020879530611546737545857178324944551936, 4844020881802241422346532944660417088585728, 4844021345214736046579898791007214471479296, 4844021380973258003117907863126966840328192, 4844021382282866105097636658280826063028224, 4844021382858888270957399097853312858324992, 4844021382931294145915161704751887735062528, 4844022041307033643905227740876878607548416, 4844022041985226715027330470677614822424576, 4844022042017551805333150320415780754161664, 4844022042280589304880507921226346669277184, 4844022045525774841464775189057906875039744, 4844022045592326497976757232636483793321984, 4844022707288950328013352255022841418743808, 4844023040239158159854218364206693453135872, 4844023042446771680151679866913202085298176, 4844023206977678384974030345973304517459968, 4844023209968699976212537618804775730544640, 4844089634303019496632869224094936374181888, 4844105751192468388737828182755542273359872, 4844105783319805200922074134287988310409216, 4844105786889509291164768128902704536748032, 4844106083499467334966796408707307343446016, 4844106117642368601513927108619511477043200]
theorem ok28 : (∀ l ∈ enUs28, lineOk l = true) ∧ keysOf enUs28 = keys28 :=
  goodChunk_ok _ _ (by decide +kernel)

def keys29 : List Nat := [4844106249652966808081280521683189878489088, 4844106285674526264166647194613508162453504, 4844106451503507183622704580806234676920320, 4844106453199623686728075520008823565713408, 4844106786082136005460659894240091891040256, 4844107112547800985837947038095048590753792, 4844107116442023629739067759492920837668864, 4844107117740097844372774666625544919973888, 4844107118389134951689628120191856961126400, 4844107445580529900697576596403676245917696, 4844108109859868034695260486312076739870720, 4844108112790676222422926862572454550700032, 4844108741955458904798542216321427904135168, 4844108778368088571054317659613479126958080, 4844108778368229930750405198202877520117760, 4844108779924129682834469249950682311557120, 4844108940955053080426678351478387193675776, 4844108942183406512047832641528692599685120, 4844108942248056692659472341005024463159296, 4844109109634980199796023661637199217033216, 4844109271894257029009387053215209505161216, 4844174704894749731248735067746794316234752, 4844191353021070962198245770433805898743808, 4844191354319145176831952677566429981048832, 4844192483319193354498535156166225565843456, 4844193348161138854205762033277020401565696, 4844193678845545032142596625313005368770560, 4844193850191341363791908366819384233033728, 4844275892375928857969559870059258157465600, 4844276589441782116270169000278390355263488, 4844276593985041867488143175242574643331072, 4844276594046522921599212301215164748791808, 4844276594046650429423258695383479358586880, 4844277055450425169770948660890435902767104, 4844277086998445657650893775938888574959616, 4844277088299055173485057141874506063675392, 4844277257366249551224126534190560916275200, 4844277259248076867262933080712416824655872, 4844278254221962383999277397868775911456768, 4844278255911106808803393075363132932620288, 4844278716985419900915789790649261253197824, 4844279215445918320259242129576908858327040, 4844279880059916212717178581480438998499328, 4844344846078210200480466755050510200340480, 4844446033559389327201291557362974041571328, 4844446048487242795488920989388150988079104, 4844446066984800354019244416028044160925696, 4844446068674095807508152909915938875244544, 4844446069321839267483953141094981331582976, 4844446729651686924526620507232638177640448, 4844446729720140056938944894913460150730752, 4844446732247835353794034321497886342250496, 4844446735558938721590169518207275114692608, 4844446735566601570433346022108900693639168, 4844446736791095105012008496462070630318080, 4844447068449056943924123268847523659251712, 4844447394265684816984556959136168317812736, 4844447394976202978412479538675070464425984, 4844447397835388907227250953750884544151552, 4844447398484426014544104407317196585304064, 4844447398808944568202531134100352605880320, 4844447400508230197808472646806683252686848, 4844447400756055890153091494799288729337856, 4844448061475831138709907225304946622595072, 4844448226331256397190684431148205075333120, 4844448392809274423963595270907243630952448, 4844448397742336734751749986831664154673152, 4844448558638255343419652657099970145419264, 4844448891918809950623901063401203277234176, 4844449057098753762763104996027617750548480, 4844449057168474545775657613109936426844160, 4844449061966532067639505897774958059192320, 4844449224292360553364851332931545265602560, 4844449224302501758166677168143518891245568, 4844449229742624309046123644666620697116672, 4844449392001901138259487036244630985244672, 4844450021243376681948910268784154882605056, 4844531139199123356927243893595682205859840, 4844531436458118508046125626966597053710336, 4844531469234492427547225032065355131912192, 4844531472550666397744273146380730717175808, 4844531472550796381448398111309595125219328, 4844531473453233625106772480246383399403520, 4844532466155489266234129709920650342170624, 4844532471089965304547148330119005665755136, 4844532471093622179423197343451057678712832, 4844532471099960432424338490458541194739712, 4844532471347786124768957338451146671390720, 4844532931839613766076482643749539869097984, 4844533430300112185419934982677187474227200, 4844533627931911363401811593619204005167104, 4844533632475171114619785768583388293234688, 4844534292545909255859748045522734145339392, 4844534292619562974377110315738407339294720, 4844534295210510817539486247468804283039744, 4844534295215581419940399165074791095861248, 4844616210439890698859963190813852189065216, 4844616874468995347136618168094968409751552, 4844616876381118769756855826084430585266176, 4844616876424852715464729740436066845851648]
theorem ok29 : (∀ l ∈ enUs29, lineOk l = true) ∧ keysOf enUs29 = keys29 :=
  goodChunk_ok _ _ (by decide +kernel)

def keys30 : List Nat := [4844616876676481359610033276633162432118784, 4844617337817346108234412035497867670978560, 4844617370666739920952759596111550591533056, 4844617371891794242369218347729249831485440, 4844617536127338357338391376240620416794624, 4844617536159663447644211225978786348531712, 4844617536162198748844667684781779754942464, 4844617537071738054508422280355664304799744, 4844617541290479252067969728536692572291072, 4844618538211476090754874406391987782549504, 4844685128445131138943930129657941968551936, 4844701446536083299273459693875280625008640, 4844701611458060214266218943297115996028928, 4844701947592730147884325847068176394747904, 4844703073023074235308214331053255753203712, 4844703437521567474197432626664388872372224, 4844703437781928547379855235320622880915456, 4844704734558068966453055460812081103634432, 4844787016237349060549631330021098213343232, 4844787017605269090139858677643805783490560, 4844787017608313184696461427739782729957376, 4844787017608947009996575542440531081560064, 4844787682473939721299701415840408456396800, 4844787682865009931470110186202141395255296, 4844788677123306684377619006213611522621440, 4844871917827168923338181595533981517873152, 4844872086180042187848643720106644114243584, 4844872088525195798270868112875545044189184, 4844872715746036285196493679429324032180224, 4844873580587981784903720556540118867902464, 4844873712667033123883398357284619242438656, 4845041527701500969512352462925979635941376, 4886539859576406569949925206372049458561024, 4886556340251154113151244888950554423721984, 4886556341549228327784951796083178506027008, 4886556346417006632661352697830518814670848, 4886556474926353881398336503960302962868224, 4886557004934872788621733957936403240189952, 4886557004938675740422418646140893349806080, 4886557305693851246970757068839715638083584, 4886557341390892149397697014986877901471744, 4886557804154349666314209407767363243212800, 4886558167939648317410570131685262309195776, 4886558169306175664456601426498708364591104, 4886558174182193698234485819355777244069888, 4886558175728093605212811574481006803025920, 4886558468768347558772145859670893383385088, 4886558506737018336808072893300147790807040, 4886558832615894786803932645331820011847680, 4886558832619055247724228221173637475991552, 4886558833593753527355768807516837429379072, 4886558833851720424502213490721416531673088, 4886558833920173556914537878402238504763392, 4886558835149794639135920397854040613978112, 4886558835222684548649043588440101048287232, 4886559166158719370731181716673181601759232, 4886559166230975454944190792558493684465664, 4886559167198949244282333193248441595068416, 4886559167208967893020269775813200207413248, 4886559170444134780866600461080001800830976, 4886559465689344397459050537526188593643520, 4886559964149842816802502876453836198772736, 4886624930168136804565791050023907400613888, 4886795071351597273797522737327623284719616, 4886887785004303271679657777870077838753792, 4886896258832776400518347539640087125950464, 4886896295896344649991318780600695444733952, 4886896591139775346747315765591852196036608, 4886896757293274819861799878567734731079680, 4886896790069648739362899283666492809281536, 4886896791367722953996606190799116891586560, 4886896791429204008107675316771706997047296, 4886896791430471658707903546173203700252672, 4886896923446774292976283991543617266122752, 4886896955898629658818956669859219323748352, 4886897920367771131663188669398912476381184, 4886898117999570309645065280340929007321088, 4886898120659735094224004679381760683802624, 4886898450376290038886586123375012753702912, 4886898450955606363190886959859006118559744, 4886898456538339606596009244050487035035648, 4886898620678809926548065067449604879941632, 4886899114949723112137219234430648391303168, 4886899114982815725267396019939251780059136, 4886899114985851154243723772373304432656384, 4886899117516715577599383772461472382189568, 4886899117589749088157064067159421114908672, 4886899118876404543868402626636375675371520, 4886899118878806147544616264369679976366080, 4886899119139308345891517406377252485070848, 4886899119463826899549944133160408505647104, 4886899121152971324354059810654765526810624, 4886899121410938221500504493859344629104640, 4886899121735456775158931220642500649680896, 4886899415749266389693545686181855291768832, 4886899448595361092207197708362932046266368, 4886899449901041210442273991904536347803648, 4886965212535057743029254424631339168825344, 4887050283126787977645120268283197110878208, 4887142996779493975527255308825651664912384]
theorem ok30 : (∀ l ∈ enUs30, lineOk l = true) ∧ keysOf enUs30 = keys30 :=
  goodChunk_ok _ _ (by decide +kernel)

def keys31 : List Nat := [4887151507669633877938573967454024216084480, 4887152170989360507563488200429420383567872, 4887152172217080113884528375778977437974528, 4887152172570754631348204378796557632274432, 4887152831963299701466063925935167269502976, 4887152832612336808782917379501479310655488, 4887152835598287797620511734726963710918656, 4887152837229250278518253824681336792678400, 4887152839427226435609878641947755742756864, 4887153298296461308625270313330368837582848, 4887153828559777986494541877007306459185152, 4887153832518016985707188183180762217971712, 4887153832520552286907644641983755624382464, 4887153833752074845029369505537802788405248, 4887154461370957620426659104161546582884352, 4887154627524457093541143217137429117927424, 4887154793677956566655627330113311652970496, 4887155458291954459113563782016841793142784, 4887236541199697338981810914247518894161920, 4887236576896738241408750860394681157550080, 4887236907645160774657111037206249636626432, 4887236912773441277880413080961162453975040, 4887237039660195758325263253175166499291136, 4887237071138495463192655751141300495187968, 4887237072436569677826362658273924577492992, 4887237073734643892460069565406548659798016, 4887237237941032043623993317683495071383552, 4887237241510736133866687312298211297722368, 4887237575177428998124831533945979257487360, 4887238404909750999326502829912545063600128, 4887238701195190489470104382933991849721856, 4887238716123043957757733814959168796229632, 4887238733647045855312777061249593907347456, 4887238737216749945555471055864310133686272, 4887238867348689962584588495909874384764928, 4887238903045730865011528442057036648153088, 4887239731866116908633388646237513199910912, 4887239731927597962744457772210103305371648, 4887239736084858106192936094418541467402240, 4887390565493708916108583642890628879089664, 4887475636085439150724449486542486821142528, 4887491788671928945256348391350254983708672, 4887491790368045448361719330552843872501760, 4887493113681183532612673846976286996561920, 4887493115051513831459389829994223161573376, 4887493115628294854563234207675223120019456, 4887493117899924730172221295157315264053248, 4887494113198328800566992339096830371430400, 4887495111417399853887603924084749663993856, 4887495111479514733298787164758088121057280, 4887560706677169385340315330194344763195392, 4887645777268899619956181173846202705248256, 4887747297057077692905974202110431616565248, 4887747478138430634308087747111491098116096, 4887747664736598987903455647426202929463296, 4887747667008228863512442734908295073497088, 4887747961671075585363910654013961756737536, 4887748329675115434019818826112889090211840, 4887748329748639168833056131399697876123648, 4887748831778841678419202464942061707591680, 4887749158820020031300105757076521662545920, 4887749457052570843394267670796904572125184, 4887749789359569789623235896748669642211328, 4887749828626314782292869837510548131938304, 4887749955513069262737720009724552177254400, 4887749992832702933456793589787494543523840, 4887750121666568735852204122700434712297472, 4887750153144868440719596620666568708194304, 4887750323517109111393628181823479510728704, 4887815918452360089187912861149918589353984, 4887832072398405152464587799062900939685888, 4887832699955806873750808271714054628704256, 4887832732407662239593480950029656686329856, 4887832735003810668860894764294904850939904, 4887832735652847776177748217861216892092416, 4887832736950921990811455124993840974397440, 4887832737599959098128308578560153015549952, 4887834398877130777374277691381380852744192, 4887986059635820558419644548453634473459712, 4888002215856030798505763032651702374236160, 4888002873333155811678767954128793468141568, 4888002873336958763479452642333283577757696, 4888002873984728220196077866498098915704832, 4888002874301763426317024469519489730347008, 4888002876248752192203695577571210840506368, 4888002878134382460043186812297556858503168, 4888002878522917369013139123856296390950912, 4888002878531790923214736729666773313388544, 4888002878847572096075887242469691315191808, 4888002879432456674676893719430180940808192, 4888003538529639154941575816020058731184128, 4888003541523829872680653662355271702282240, 4888003543072898906159549990984243019251712, 4888003543143253514472216722767310047150080, 4888004534863079940422696166281632005750784, 4888004535841849804843446368348975178711040, 4888004537722265869237467581357446085476352, 4888004540057912100157980253615121741381632, 4888004540318414298504881395622694250086400, 4888071130227550793035510392105492415512576]
theorem ok31 : (∀ l ∈ enUs31, lineOk l = true) ∧ keysOf enUs31 = keys31 :=
  goodChunk_ok _ _ (by decide +kernel)

def keys32 : List Nat := [4888087911730997577598405802669628454862848, 4888088410191495996941858141597276059992064, 4888088608147813728582161479322448611508224, 4888156200819281027651376235757350357565440, 4888172349511548178282154419167246273216512, 4888172982322727812214271646321486396915712, 4888173480783226231557723985249134002044928, 4888173682309248053440721317589022779899904, 4888175677773834499106664307215393303298048, 4888175973085718328274985679887372027691008, 4888257554453959627486685151045696733839360, 4888258052914458046830137489973344338968576, 4888258219067957519944621602949226874011648, 4888259248116291170815772232336968121319424, 4888259382142453831746010393780404619313152, 4888259548295953304860494506756287154356224, 4888260249905066314379077811939603640221696, 4888260379063450670432915071635699829571584, 4888260545216950143547399184611582364614656, 4888260577993324063048498589710340442816512, 4888260578065580147261507665595652525522944, 4888260582212065260608046037891368710307840, 4888260582925242517240353614260754175754240, 4888260582927790197841202926866496573407232, 4888411412594471731498973766712924183724032, 4931797414376891385590554029160474630684672, 4931813569559529609389866748233490957860864, 4931814210808191638441078871749787616542720, 4931814232875453287214096293004397015728128, 4931814233524490394530949746570709056880640, 4973668428551115181815992177511070554914816, 4973668462625563315950798489742452715421696, 4973668628518560590718381460710762741760000, 4973668629752618450040562783067803312193536, 4973669126332557203945436804875091712147456, 4973669130809265298651428936260699081932800, 4973669591625611493617380968342248300216320, 4973670126107669369046199980200214189309952, 4973670289089507040389654130631345304502272, 4973670290314057520210123732477160600895488, 4973670455239837387003567670103486081531904, 4973670455882536241319279976662314606657536, 4973670456467556993324607845453043135938560, 4973670458414668315275168206151979259396096, 4973670787548737809132878240157496206426112, 4973670788526730247208957223412202729373696, 4973671119134443563831983936657637152653312, 4973671119783480671148837390223949193805824, 4973671119848130851760477089700281057280000, 4973671121150008018194868685037395249201152, 4973671253160606224762222098101073650647040, 4973671453459044613728500646921644277760000, 4973671623111757395368690630898937107578880, 4973671783165956005485048978573432169955328, 4973671784465931696019098229808301307068416, 4973672450373567026009942785939217068326912, 4973737216099897051212414949526440062746624, 4973753364792164201843193132936335978397696, 4973753366414756970135326766852116081278976, 4973754662217341728233246811994106242269184, 4973754695318234201392772943876020341047296, 4973754697914382630660186758141268505657344, 4973754697978398985971712342916852017528832, 4973754697979723581813747699810994080448512, 4973755659138338566920151489849401452527616, 4973822286691627285828280793178298004799488, 4973839068195074070391176203742434044149760, 4973839103892114972818116149889596307537920, 4973839598133872194602021040636215645175808, 4973839599504202493448737023654151810187264, 4973839764611890221374931880395254200795136, 4973839770453224187226612962492062571167744, 4973841762023587988991435230720560847650816, 4973923509220810207659192088071612068265984, 4973924803400802197464978499297822126374912, 4973924834879101902332370997263956122271744, 4973924836249432201179086980281892287283200, 4973924839097843099891918445444984389763072, 4973924839163127105803672259622064604839936, 4974000070936063518326281677372610500886528, 4974008579812540442275057931723470010318848, 4974008580461577549591911385289782051471360, 4974008581831907848438627368307718216482816, 4974008583057725978859325199555030216081408, 4974008583382244532517751926338186236657664, 4974008747974775892495728635482767072690176, 4974008913161681879415873546775214220640256, 4974008913162320900679160365152155459387392, 4974008914130667065766112103149754715734016, 4974009043225035066508423778070267393212416, 4974009076001408986009523183169025471414272, 4974009077372373110156353280887709988028416, 4974009077373006935456467395588458339631104, 4974009407073082422316081857362253267861504, 4974009408308407932238491409120790541500416, 4974009408380720961693307612498747983921152, 4974009409606482146872198316253414623805440, 4974009414798779005407025944783910953025536, 4974009575832871529499805619815357593157632, 4974009911636684656458344649795778455273472]
theorem ok32 : (∀ l ∈ enUs32, lineOk l = true) ∧ keysOf enUs32 = keys32 :=
  goodChunk_ok _ _ (by decide +kernel)

def keys33 : List Nat := [4974010406527478985559102994108709834063872, 4974010410421701629460223715506582080978944, 4974010742465663076141834340647781235949568, 4974010742468198377342290799450774642360320, 4974010870913529270767749020804975278686208, 4974011071211197661029592063094558650531840, 4974011073161608093184847962226100940046336, 4974011075035699521918160167410112221151232, 4974011369374027690111201359732622883815424, 4974011403448475824246007671964005044322304, 4974011405395587146196568032662941167779840, 4974011407342698468147128393361877291237376, 4974011550455380631513314904733682365366272, 4974011571940156829481460916000556641681408, 4974011572913833808580591063616964817584128, 4974011573171679387603185779554603805704192, 4974011573233294139238497726596883016581120, 4974011573243935471816194855439915888410624, 4974011734529656640054278066668458114809856, 4974011735832801457088897891407069009936384, 4974011738742693409912798482542751217876992, 4974011867834526109454653698660270488944640, 4974011905545229990344136049084945794072576, 4974012033988025582569137811636153023987712, 4974012065534778419848854697283108992974848, 4974012066832852634482561604415733075279872, 4974012066836712531525053420112868544610304, 4974012066836797949387764111351836584181760, 4974012066836799187327803396732111483305984, 4974012068130926849116268511548357157584896, 4974012070078183010051425261739456478576640, 4974012233891454636160001510060261698961408, 4974077498466817989675878324133871830958080, 4974096938426256344070519542312128430997504, 4974097603040254236528455994215658571169792, 4974162569058548224291744167785729773010944, 4974179387557110125915286431629652158054400, 4974179388206147233232139885195964199206912, 4974180047303329713496821981785841989582848, 4974180050873033803739515976400558215921664, 4974180050938317809651269790577638430998528, 4974180052495626572031649610316338318802944, 4974180052820145125690076337099494339379200, 4974180513636491320656028369181043557662720, 4974181047794030642426420654255853426180096, 4974182009017986578686385385963986373050368, 4974247639650278458907610011437587715063808, 4974255282711254222173879208328184327045120, 4974263791587731146122655462679043836477440, 4974348827131457585628434813750051556294656, 4974348858934275844154254038499341572767744, 4974348860556868612446387672415121675649024, 4974348993284957058742918926725934091337728, 4974349024763256763610311424692068087234560, 4974349190989646146237918728254011056586752, 4974349192214830451358502444800574704582656, 4974349193512904665992209351933198786887680, 4974349193576287196003620822008033947156480, 4974349193576921021303734936708782298759168, 4974349195460015987942769712632134910345216, 4974349358440586008685995633661769322332160, 4974349527505245085224608567174830768521216, 4974349527516020115326548517087552745766912, 4974349528740570595147018118933368042160128, 4974349529389607702463871572499680083312640, 4974349855600474912195284606653799438745600, 4974349858126902558450145803836728927059968, 4974350688971726610636488362207440497803264, 4974350852521471750882189284509094649004032, 4974350855047899397137050481692024137318400, 4974350856995010719087610842390960260775936, 4974350857383545628057563153949699793223680, 4974351018605250440984120780402658507751424, 4974351018634406404789370056637082681475072, 4974351019578806101959400960752126569480192, 4974351019903324655617827687535282590056448, 4974351020552361762934681141101594631208960, 4974351153280450209231212395412407046897664, 4974351353183879262822076093836515721871360, 4974351353247895618133601678612099233742848, 4974351354481953477455783000969139804176384, 4974351354548627690031654297194931735756800, 4974351485587449155460180621364172116983808, 4974351817894448101689148847315937187069952, 4974351832822301569976778279341114133577728, 4974351850021784913873394798848383224119296, 4974351851644377682165528432764163327000576, 4974351854240526111432942247029411491610624, 4974352015588362159082208698931292175073280, 4974352016887760969557950962958058320297984, 4974352016896634523759548568768535242735616, 4974352016896719941622259260007503282307072, 4974352018185144413649736627897288691286016, 4974352022016618352839559993921074129534976, 4974352022088874437052569069806386212241408, 4974352349199773572946024979023164843491328, 4974352349204844175346937896629151656312832, 4974352350429394655167407498474966952706048, 4974417780833738928139341698741303599169536, 4974519670573068171695603259803395967418368]
theorem ok33 : (∀ l ∈ enUs33, lineOk l = true) ∧ keysOf enUs33 = keys33 :=
  goodChunk_ok _ _ (by decide +kernel)

def keys34 : List Nat := [4974520828779786178620591148887233404076032, 4974520830147581176266850673102176162676736, 4974587922017199397371073386045019483275264, 4974604703520646181933968796609155522625536, 4974604735972501547776641474924757580251136, 4974605401560055101209858107177755782152192, 4974605405454277745110978828575628029067264, 4974605405520195576322846757453456595746816, 4974606365055640913078809926367980873056256, 4974672992608929631986939229696877425328128, 4974689141625715336276144139889929361555456, 4974689774112376416549834640261013464678400, 4974689809809417318976774586408175728066560, 4974689811180381443123604684126860244680704, 4974690474488699217346464852488786083315712, 4974690474488756162588271979981431443030016, 4974690474747933765093137765094861888815104, 4974690476370526533385271399010641991696384, 4974693097182365878839516899778664165539840, 4974774217085223875768410885289127612252160, 4974774879752110446275786976493721628966912, 4974774881699221768226347337192657752424448, 4974774882348258875543200790758969793576960, 4974774883970851643835334424674749896458240, 4974775541445441355807882887348847583952896, 4974775546637738214342710515879343913172992, 4974775546962256768001137242662499933749248, 4974775547611293875317990696228811974901760, 4974776506239101382310541613671696757161984, 4974776544207772160346468647300951164583936, 4974777503160098220997446291526991967420416, 4974859451883342261548200481217931965890560, 4974859582988837939552598101612964278697984, 4974859619983953056613244954892750624391168, 4974859915295836885781566327564729348784128, 4974860114225710278397149845639369962029056, 4974860115592237625443181140452816017424384, 4974860912216833724468471005420024559042560, 4974860945065463728182579486404094719950848, 4974861111175863080889303799729089346011136, 4974861277373855356955743765165121304788992, 4974861278598280804832245543603171789635584, 4974861280869910680441232631085263933669376, 4974861442224084981091640229994628133158912, 4974861443453706063313022749446430242373632, 4974861444824670187459852847165114758987776, 4974861448382965422300492777166360656478208, 4974861612203353965694920676687560942026752, 4974861614474983841303907764169653086060544, 4974861775829158141954315363079017285550080, 4974861777121527928886995237904906203430912, 4974862109365778170404666108482584464850944, 4974862111312889492355226469181520588308480, 4974862277855064999604141427067481155960832, 4974862278764463180103417489290027205656576, 4974862441412274918286733192426777026232320, 4974862446865073975168461962964845864157184, 4974862771383627633595188746120866440413184, 4974862772750154980641220040934312495808512, 4974863072212326874956764474106497514602496, 4974928204384120335834536760652451251486720, 4974945017365866825264824669182721286733824, 4974945021658131757637609422650558340136960, 4974945022911838201263328300730797810253824, 4974945023531719344774932478062685677682688, 4974945484348065539740884510144234895966208, 4974945686263889921194062383444359909474304, 4974946647422561851542273300975412641267712, 4975098345567580805066268447956167135592448, 4975115159198364401813409810052749211992064, 4975115160171920062788689990402217273720832, 4975115163092587045714530531450621458907136, 4975115164464184995161474743870054327123968, 4975115827706584938172466983354151599079424, 4975115829978214813781454070836243743113216, 4975116824303063223200944934426290788761600, 4975116825925655991493078568342070891642880, 4975118487460650722637919698100896242073600, 4975183416159311039682134291608025077645312, 4975199533048759931787093250268630976823296, 4975199570759463812676575600693306281951232, 4975199865355758878016061476220396046909440, 4975200197662757824245029702172161116995584, 4975200229790094636429275653704607154044928, 4975200229862350720642284729589919236751360, 4975200234687028905110925831686371636412416, 4975200234982391494964103282235103483265024, 4975200235955947155939383462584571544993792, 4975200696123256243588482041099808722124800, 4975200727601555948455874539065942718021632, 4975200862276755716702966154075691257167872, 4975200894079573975228785378824981273640960, 4975201894894793457816810778078148730814464, 4975202025351252028504354944906869002469376, 4975203188425748340305743735738046747770880, 4975284635833744809799072974330763522605056, 4975284637065901193220911952585559038230528, 4975285300057306317386714770573309075521536, 4975285304014911491299246962046016482705408, 4975285304276047514946262218754337343012864]
theorem ok34 : (∀ l ∈ enUs34, lineOk l = true) ∧ keysOf enUs34 = keys34 :=
  goodChunk_ok _ _ (by decide +kernel)

def keys35 : List Nat := [4975285932868485951318831997727549199220736, 4975285964671304209844651222476839215693824, 4975285965320341317161504676043151256846336, 4975285965717115955032940478711619360129024, 4975285966293896978136784856392619318575104, 4975285967983041402940900533886976339738624, 4975285967984942878841242877989221394546688, 4975285967993182607742726369098949965381632, 4975285970261643356851142883077300351401984, 4975285971161675283013185758139959627218944, 4975287462324429343483995326741874175115264, 4975287464342657844811422213473215186993152, 4975287628153410262940052712934600689582080, 4975369674232220401018824937572346860929024, 4975370373894222088586847882056727223336960, 4975370374543259195903701335623039264489472, 4975370706201221034815816108008492293423104, 4975371039157257088361637787526569404661760, 4975371704488745220548752080677233559076864, 4975371834227713551507118406258819816488960, 4975371868951198792958778172056514018148352, 4975371871948558637198426591895468747259904, 4975372697122547729263784922670678528753664, 4975372865292879307341382013427815863549952, 4975455409437948528092627233127734943154176, 4975455444552503979714695769287162083672064, 4975455445134989430519567179274897206542336, 4975455446462219608958523362641945462571008, 4975455446831105933624938118477486095335424, 4975455448704693520762261173889613432881152, 4975456106179283232734809636563711120375808, 4975456112345135752244917445443675511324672, 4975457070972943259237468362886560293584896, 4975523698526231978145597666215456845856768, 4975710288906140285711256538131543699226624, 4975712150084061872100060224306905215926272, 4975713113515631328657486458721546794958848, 5017208288474046939919861055625848451760128, 5017224571516995305139304127262336885981184, 5017224772393980019705448006035913622683648, 5017224774732161551826417137096582684999680, 5017224775314647002631288547084317807869952, 5017225734591491616940692918093514631282688, 5017226264602545825364546830872608315015168, 5017226268424512385052658476385168479223808, 5017226269073549492369511929951480520376320, 5017226270696142260661645563867260623257600, 5017226597486325794697359434505373343547392, 5017226597874860703667311746064112875995136, 5017226897665987928742081708924692376584192, 5017227593758285526067410658794356512653312, 5017227596424788563647491204842671705161728, 5017227600248656599235945194457476924178432, 5017227728433485294314502273804105051799552, 5017227930680800307727362135595617953513472, 5017228060740484240543470499755870121885696, 5017293359065777174535726899277706393812992, 5017394582317520938496728953024141284343808, 5017394582893034311000345101303644539584512, 5017394584840145632950905462002580663042048, 5017395243612809559557160831809302432841728, 5017395245235402327849294465725082535723008, 5017395248480587864433561733556642741485568, 5017395709621452613057940492421347980345344, 5017395745643012069143307165351666264309760, 5017395908551326005673524010495988593590272, 5017395911535375518610776021619227939045376, 5017396407011824425016976349423636198719488, 5017396408309898639650683256556260281024512, 5017396905796841398018855415134439824424960, 5017396909118719795916930561756550574112768, 5017396910736995867292076074653757430824960, 5017397869616945763546233961107820935905280, 5017463500249237643767458586581422277918720, 5017556213901943641649593627123876831952896, 5017564687730416770488283388893886119149568, 5017564725050050441207356968956828485419008, 5017564726348124655841063876089452567724032, 5017565056058975172802618287775969473200128, 5017565057681567941094751921691749576081408, 5017565186190915189831735727821533724278784, 5017565218967289109332835132920291802480640, 5017565221238918984941822220402383946514432, 5017565684651413609175188066749181329408000, 5017565721646528726235834920028967675101184, 5017566016958412555404156292700946399494144, 5017566548195284894248708036727352082825216, 5017566548519803447907134763510508103401472, 5017566553712100306441962392041004432621568, 5017566714348784367363192149703234617868288, 5017566717662423036359783805215616796721152, 5017566879277733360657206660833301856518144, 5017566879853246733160822809112805111758848, 5017566880177765286819249535895961132335104, 5017566880565666370489087732753952313180160, 5017566881151320947794529716245429194063872, 5017566881870078838123935786894059911512064, 5017566885433444675365488634501292621824000, 5017566885438515277766401552107279434645504, 5017567211511208572072937581498258140692480]
theorem ok35 : (∀ l ∈ enUs35, lineOk l = true) ∧ keysOf enUs35 = keys35 :=
  goodChunk_ok _ _ (by decide +kernel)

def keys36 : List Nat := [5017567527267761281722142741509066161389568, 5017567547387911608544599802064739437117440, 5017567548361467269519879982414207498846208, 5017567550703451753441533801679366670778368, 5017567678493407286548997422459771749924864, 5017567712243336867025377007907997889855488, 5017567716137559510926497729305870136770560, 5017568046172928581546478867775543062822912, 5017568176953905705892449761387419355054080, 5017568209800000408406101783568496109551616, 5017568377181853313141740186594684050604032, 5017568509260904652121417987339184425140224, 5017633641432698112999190273885138162024448, 5017718712024428347615056117536996104077312, 5017803782616158582230921961188854046130176, 5017811425677134345497191158079450658111488, 5017820601114720483854464225032776431173632, 5017820602412794698488171132165400513478656, 5017821264430644161678693769803682489040896, 5017821264755162715337120496586838509617152, 5017821265079681268995547223369994530193408, 5017821267026792590946107584068930653650944, 5017822225654600097938658501511815435911168, 5017822260765986423060156464167500818415616, 5017822261351641000365598447658977699299328, 5017822262649715214999305354791601781604352, 5017822262723238949812542660078410567516160, 5017823554882595882854531405318875716255744, 5017905136250837182066230876477200422404096, 5017905334531673467364960940985528994496512, 5017905501363366011601547783762147744415744, 5017905501407099957309421698113784005001216, 5017905502632284262430005414660347652997120, 5017905502709610949043927408151646548525056, 5017906002776856504176660513476365466468352, 5017906830562205832712171411334783851036672, 5017906837052576905880705946997904262561792, 5017907130092830859440040232187790842920960, 5017907161571130564307432730153924838817792, 5017907162898360742746388913520973094846464, 5017907163518241886257993090852860962275328, 5017907296246330332554524345163673377964032, 5017907331943371234981464291310835641352192, 5017907332004852289092533417283425746812928, 5017907794706828751897976684091320983093248, 5017907826185128456765369182057454978990080, 5017907960860328225012460797067203518136320, 5017908161158630440574417954057535241584640, 5017908293167327171241429023018968588222464, 5017908459320826644355913135994851123265536, 5017909123934824536813849587898381263437824, 5018058994391349286078519492144427872288768, 5018075775894796070641414902708563911639040, 5018075813538948295018915209554662298484736, 5018076476269851220837816885534839827070976, 5018076476271118871438045114936336530276352, 5018144064983079520694385335796285814341632, 5018160219516680637176844601302990100365312, 5018160846486526305257280746360421853691904, 5018161548810594253304585433987878947389440, 5018229135574809755310251179448143756394496, 5018245252464258647415210138108749655572480, 5018245287580715574937621018370421850898432, 5018245288161299549842150084255911918960640, 5018245952126260334983233082593130017980416, 5018245952775297442300086536159442059132928, 5018246619402324487920451277639736889442304, 5018247613724637596139485682426790528679936, 5018314206166539989926117023100001698447360, 5018399276758270224541982866751859640500224, 5018415758731091982377009456462988687966208, 5018416262059368706596862697137976601739264, 5018417252876627905184842806786645878112256, 5018417253788068686748939746462775482777600, 5018417255473410159752370735752642394324992, 5018417259629402652600620828559583853150208, 5018417387489712794020751181123055960195072, 5018417568571065735422864726124115441745920, 5018417585121511972002627792065072491134976, 5018417587068623293953188152764008614592512, 5018417885950211213364203520050703565324288, 5018417919766815006416454401724721636835328, 5018417919766843479037357965471044316692480, 5018417919776833655154390984289480249180160, 5018418250384546971777417697534914672459776, 5018418250709065525435844424318070693036032, 5018418882871208052051108197905998775582720, 5018418916945656186185914510137380936089600, 5018500464239449351262807669064323481731072, 5018500498313897485397613981295705642237952, 5018500499936490253689747615211485745119232, 5018501164613870676159095537189851045560320, 5018501164875006699806110793898171905867776, 5018501165848562360781390974247639967596544, 5018501660090319582565295864994259305234432, 5018501660162575666778304940879571387940864, 5018501663335505119149563132825819510996992, 5018501828515448931288767065452233984311296, 5018501829229770044517374333195626240540672, 5018501829489004592264047245801702046040064]
theorem ok36 : (∀ l ∈ enUs36, lineOk l = true) ∧ keysOf enUs36 = keys36 :=
  goodChunk_ok _ _ (by decide +kernel)

def keys37 : List Nat := [5018502331194688548191766852560909856931840, 5018502826085482877292525196873841235722240, 5018502827383557091926232104006465318027264, 5018502828032594199243085557572777359179776, 5018588889448055582972315478950477199048704, 5018654488533460928389580397707433466658816, 5018739559125191163005446241359291408711680, 5018755676014640055110405200019897307889664, 5018755713334273725829478780082839674159104, 5018756008321639001339373425971662377975808, 5018756375676641742678428144504277670297600, 5018756376390962855907035412247669926526976, 5018756377977427582092664508220793988055040, 5018756378272790171945841958769525834907648, 5018757005242635840026278103826957588234240, 5018757038019009759527377508925715666436096, 5018757038091265843740386584811027749142528, 5018757040367332496450172475198358354395136, 5018757503703134259369730442754605193363456, 5018757537777582393504536754985987353870336, 5018757836010133205598698668706370263449600, 5018758201163350648345247454866702000455680, 5018758832931130044285603346561665473708032, 5018759036141225688571803438789924459905024, 5018759331391628463629055685489313078837248, 5018832272777897160887581281901745962745856, 5018840780031781316544223902336825369296896, 5018840781654374084836357536252605472178176, 5018840782045444295006766306614338411036672, 5018840782366793722164622459893752673599488, 5018840782952448299470064443385229554483200, 5018840784279678477909020626752277810511872, 5018841443672223548026880173890887447740416, 5018841448285334065961531930866254820147200, 5018841448285837907557521080638138763706368, 5018841449838076067536987982770851838689280, 5018841449899557121648057108743441944150016, 5018841942457240521028759239601691073445888, 5018842075834366074642143947478815530287104, 5018842090762219542929773379503992476794880, 5018842107312665779509536445444949526183936, 5018842107961702886826389899011261567336448, 5018842108029522193938600171991335188824064, 5018842108610739994143243352577573608488960, 5018842108935258547801670079360729629065216, 5018842111596690982980837707803058008752128, 5018842112829481191702790800758601875980288, 5018842607071238413486695691505221213618176, 5018843104950519032625504849846630399082496, 5018843108189366316208630970670707088818176, 5018843108516420171067514156256856515805184, 5018843109101440923072842025047585045086208, 5018843109814494385701221063389480598110208, 5018843571215861332672500964261758345674752, 5018843602757543567551304932302727501840384, 5018843602767829611337727157006864325017600, 5018843602770853898853701341018442885496832, 5018843605353691996818718746567975666450432, 5018843610482606325342134905023636835401728, 5018844401983358698244921529141171020890112, 5018844734290357644473889755092936090976256, 5018909700308651632237177928663007292817408, 5018925852246104319452223379904463414231040, 5018925983351599997456621000299495727038464, 5018926814119097363029041565178908402253824, 5018927183745729979977083371193615838609408, 5018927184070248533635510097976771859185664, 5018927644886594728601462130058321077469184, 5018927811040094201715946243034203612512256, 5018927845114542335850752555265585773019136, 5018927977193593674830430356010086147555328, 5018928641807591567288366807913616287727616, 5018994770900381866853043772314865234870272, 5019079841492112101468909615966723176923136, 5019098284530553617176646156289684566704128, 5019249982675572570700641303270439061028864, 5019266431872020409034568487882810030292992, 5019267927253515667064925504665752845680640, 5019268295582074069379260403547836199731200, 5019268958318681422899189111834748892741632, 5060764431439927063243173005377114782826496, 5060772074500902826509442202267711394807808, 5060780714482875428462616077013603217047552, 5060780749595037941988745973101650350440448, 5060780750573018295642332088523126510452736, 5060780914710823035711906502220867912597504, 5060781082811433830776950975895686571098112, 5060781379096873320920552528917133357219840, 5060781912675730143686758092208698212483072, 5060782376017870159607457206772428567478272, 5060782407496169864474849704738562563375104, 5060782408863964862121109228953505321975808, 5060782410092318293742263519003810727985152, 5060782410741355401059116972570122769137664, 5060782411132567974334043561663469107281920, 5060782412104713621604577693879827066519552, 5060782578192929088807307992678629386485760, 5060782740840740826990623695815379207061504, 5060782746030502384324994865542882129870848, 5060783073480498055779502139660028868558848]
theorem ok37 : (∀ l ∈ enUs37, lineOk l = true) ∧ keysOf enUs37 = keys37 :=
  goodChunk_ok _ _ (by decide +kernel)

def keys38 : List Nat := [5060783075679871847175480151256808929886208, 5060783404417166703161754382593857773633536, 5060783405066203810478607836160169814786048, 5060783405715240917795461289726481855938560, 5060783407090641819043090190350404833771520, 5060783571868740390909945402702364390981632, 5060783578359111464078479938365484802506752, 5060783739383062783369433778184957816995840, 5060783743286792806772266220094055337951232, 5060783907096406320064754169702533646254080, 5060784037552864890752298336531253917908992, 5060784203706364363866782449507136452952064, 5060784404007201880629196065300461582811136, 5060849502031657297859038849028972724879360, 5060934572623387532474904692680830666932224, 5060951852587332736381252442172614311411712, 5060951885437230390695589152558181175525376, 5061019643215117767090770536332688608985088, 5061112356867823764972905576875143163019264, 5061120863214703916166250060539331426123776, 5061120868340449118189095645491250837061632, 5061121195779669759541662969695675598503936, 5061121200647448064418063871443015907147776, 5061121329156795313155047677572800055345152, 5061121363231243447289853989804182215852032, 5061121495310294786269531790548682590388224, 5061121827617293732498500016500447660474368, 5061121860465923736212608497484517821382656, 5061121861691741866633306328731829820981248, 5061122673312644566358550013405037282197504, 5061122692459239232205726893611242496196608, 5061122695704424768789994161442802701959168, 5061122856016590276052797192321876866629632, 5061122856090114010866034497608685652541440, 5061123022239810532179833922380078077968384, 5061123022819126856484134758864071442825216, 5061123023143645410142561485647227463401472, 5061123023541053873314111403016443918286848, 5061123028335942268677389114177723792621568, 5061123028397550830612504634318628507877376, 5061123156845289517414372920307507940818944, 5061123322998788990528857033283390475862016, 5061123355775162910029956438382148554063872, 5061123687433124748942071210767601582997504, 5061123687757643302600497937550757603573760, 5061123689380236070892631571466537706455040, 5061123689444394789308674974973734617612288, 5061123689453125980405754762052598140764160, 5061123689457682837690364246844501817032704, 5061123691069524096741304353072783026028544, 5061123693598977268452179019647565973946368, 5061123836387140878159938804236215027499008, 5061123858778921080591382952273980447260672, 5061123858808077044396632228508404620984320, 5061124021426732818774698655410730267836416, 5061124153766286356101277598162803151077376, 5061124652226784775444729937090450756206592, 5061124818380284248559214050066333291249664, 5061189784398578236322502223636404493090816, 5061274854990308470938368067288262435143680, 5061367568643014468820503107830716989177856, 5061376078168528500086132815747888539762688, 5061376707085485490117129321504256416546816, 5061376738563785194984521819470390412443648, 5061376738636675104497645010056450846752768, 5061376738637308929797759124757199198355456, 5061376741232823533765058824321699011362816, 5061376744729637714494629628350354803392512, 5061377403855976158564561001174656767492096, 5061377403888301248870380850912822699229184, 5061377406747487177685152265988636778954752, 5061377407464343592114215992535022441594880, 5061377870159981801918518112335434161848320, 5061378401136351942416168714354267336474624, 5061378401139009799680514425804475756183552, 5061378404642039677347337124193400050941952, 5061378405682290595879156452233333329362944, 5061378405682298023519392164514982724108288, 5061379033234478113719906903166611907149824, 5061461113063217832275058713252584218427392, 5061461144866036090800877938001874234900480, 5061461150777724664965225751881749633171456, 5061461279216717305389542826228466753470464, 5061461480093702019955686705002043490172928, 5061461481391776234589393612134667572477952, 5061461483338887556539953972833603695935488, 5061461645598164385753317364411613984063488, 5061461813374256627159935111303276621987840, 5061461943830715197847479278131996893642752, 5061461983097460190517113218893875383369728, 5061462109984214670961963391107879428685824, 5061462147952885448997890424737133836107776, 5061462975866403661560773883976958148083712, 5061463106905211509648868068963174638944256, 5061463143251289519392661468676648943484928, 5061463144942335420097119490273251019456512, 5061463273058710982763352181939057173987328, 5061463304537010687630744679905191169884160, 5061463305864240866069700863272239425912832, 5061463307133159116898158494170439334494208]
theorem ok38 : (∀ l ∈ enUs38, lineOk l = true) ∧ keysOf enUs38 = keys38 :=
  goodChunk_ok _ _ (by decide +kernel)

def keys39 : List Nat := [5061463439212210455877836294914939709030400, 5061463471339547268062082246447385746079744, 5061463474973392745560269649245450295836672, 5061463771519209402106804520866704779116544, 5061464135304508053203165244784603845099520, 5061464136602582267836872151917227927404544, 5061464139198730697104285966182476092014592, 5061464139847767804421139419748788133167104, 5061464140172286358079566146531944153743360, 5061464141537035019820753355128420060626944, 5061464305027711616560343352375202606481408, 5061464436133207294564740972770234919288832, 5061464602286706767679225085746117454331904, 5061464633765006472546617583712251450228736, 5061465266900704660137161537649647594504192, 5061465298379004365004554035615781590401024, 5061465299746799362650813559830724349001728, 5061700207948959644017697285547552145408000, 5061716324838408536122656244208158044585984, 5061716360535449438549596190355320307974144, 5061717004380259896868222128136865131266048, 5061717021904261794423265374427290242383872, 5061717026801196063104915552409054724751360, 5061717027125714616763342279192210745327616, 5061718650987401159725433825870513535188992, 5061785278540689878633563129199410087460864, 5061802060044136663196458539763546126811136, 5061870349132420113249428972851268029513728, 5061955419724150347865294816503125971566592, 5061971702767098713084737888139614405787648, 5061971905977337958415495084479761690394624, 5061972071095657115399072787021697759838208, 5061972367381096605542674340043144545959936, 5061972570529711195717805306298813426696192, 5061972897968931837070372630503238188138496, 5061973561933892622211455628840456287158272, 5061973562258411175869882355623612307734528, 5061973569722337910013697071636200780988416, 5061973728155975211442389094426025203335168, 5061973728160915830139177047103147608113152, 5061973732630651846543913916780523110268928, 5061973735875837383128181184612083316031488, 5061974392701389987783876193719868962373632, 5061974395361554772362815592760700638855168, 5061974395374865103665212001476416022511616, 5061974527376589756030967808729617501519872, 5061974896678703819320582887961168917299200, 5061974897327740926637436341527480958451712, 5061975223541143437569305834484593720295424, 5062040490315880582481160660154983913619456, 5062226748388789943817851306119305696903168, 5062226780191608202343670530868595713376256, 5062226780582044587213965186529580300632064, 5062226780582678412514079301230328652234752, 5062226780582822013558636405342216950644736, 5062226780589775522759302386346325331410944, 5062226785708423614536924886182248063172608, 5062226786746131804228052043137538540437504, 5062226786746137993928248470038913036058624, 5062227446103680309435313889904749935853568, 5062227448375310185044300977386842079887360, 5062227448441861841556283020965418998169600, 5062228109095085433601116707892499973144576, 5062228109808281259334013564966008925454336, 5062228109810794277613762886924054147629056, 5062228109817012450431093352044872448606208, 5062228112989308077502237429290372220059648, 5062228115909975060428077970338776405245952, 5062229109976856572701124150724244348600320, 5062229110301375126359550877507400369176576, 5062229110311516331161376712719373994819584, 5062229110949903440320258039780728870273024, 5062229111928404671752483314328418933276672, 5062229112830971899114982648194071615504384, 5062230105533227540242339877868338558271488, 5062230108778413076826607145699898764034048, 5062295702091071286328758191110557739778048, 5062312151287519124662685375722928709042176, 5062312982055016490235105940602341384257536, 5062315474357508586952367635240579409903616, 5062380772682801520944624034762415681830912, 5062397591505881976226593025389494087450624, 5062399215721243036652360575085377071611904, 5062400212642239875339265252940672281870336, 5062465843274531755560489878414273623883776, 5062481960163980647665448837074879523061760, 5062481997159095764726095690354665868754944, 5062482160391928254914739262282144218611712, 5062482458624479067008901176002527128190976, 5062482624777978540123385288978409663234048, 5062482790931478013237869401954292198277120, 5062483289391976432581321740881939803406336, 5062483954005974325039258192785469943578624, 5062484154306811841801671808578795073437696, 5062484467394326212670339963738294495215616, 5062484817549845610112778162763640696995840, 5062484818847919824746485069896264779300864, 5062484818920809734259608260482325213609984, 5062484820795031146697045430595200902758400, 5062484824040216683281312698426761108520960]
theorem ok39 : (∀ l ∈ enUs39, lineOk l = true) ∧ keysOf enUs39 = keys39 :=
  goodChunk_ok _ _ (by decide +kernel)

def keys40 : List Nat := [5062484950926971163726162870640765153837056, 5062550913866261990176355722066131565936640, 5062635984457992224792221565717989507989504, 5062652101347441116897180524378595407167488, 5062653467895070572532127008248598053781504, 5062654427496433740499958106040950897770496, 5062806125641452694023953253021705392095232, 5062822242530901586128912211682311291273216, 5062824070219395790388237454417019176747008, 5062824767609767602347273311419307395121152, 5062824768583323263322553491768775456849920, 5062891196233182928639819096673563334148096, 5062907977736629713202714507237699373498368, 5104336857448755551785928026764869548113920, 5104337023602255024900412139740752083156992, 5104338882769048934027129880441593964527616, 5104338885365197363294543694706842129137664, 5104339547452911210542176053539331079405568, 5104339548356602487460346512694592166428672, 5104339549979195255752480146610372269309952, 5104339553548899345995174141225088495648768, 5104339848211746067846642060330755178889216, 5104340180518745014075610286282520248975360, 5104422426500984205745246209344375095296000, 5104422461548988000855332701925225317531648, 5104422463496099322805893062624161440989184, 5104422463566453931118559794407228468887552, 5104423091114982098203182661247905235468288, 5104423126877307006541876421572147713933312, 5104423622381010400852983681508735092523008, 5104506832478716547903175601092702897176576, 5104508193509530591344867729649053193994240, 5104508199350864557196548811745861564366848, 5104508692943584671663600248926168860852224, 5104509657088207590849405521682705992908800, 5104510155548706010192857860610353598038016, 5104510820162703902650794312513883738210304, 5104592401530945201862493783672208444358656, 5104592604679559792037624749927877325094912, 5104592605077602080509288781997842131582976, 5104592605977634006671331657060501407399936, 5104593264425779379619160300084067156623360, 5104593265138199016947425223725214358044672, 5104593265147706396449136944236439632084992, 5104593269618076238153987928614563485843456, 5104593269942594791812414655397719506419712, 5104594264916480308548758972554078593220608, 5104594927907885432714561790541828630511616, 5104595226140436244808723704262211540090880, 5104679166434044087124300162181649815044096, 5104679170977303838342274337145834103111680, 5104679171365838747312226648704573635559424, 5104679832414569326628267908898626010611712, 5104762044253907251750773132048276723335168, 5104763871942401456010098374782984608808960, 5104848310766228500681679788712389165187072, 5104848479770674173709451825654357209120768, 5105001139139649063493411704343244650315776, 5105019117869366980606424211461239491002368, 5105019416024591106086664131690323505053696, 5105019449450002132904616990355393624408064, 5105020116011111347313113802957859888037888, 5105020444423887649640961307511752711208960, 5105020745252586891002537035497383785398272, 5105020778101273839958452643974099306020864, 5105086209731379298109277547995102592368640, 5105171280323109532725143391646960534421504, 5105272467804288659445968193959424375652352, 5105272499607106917971787418708714392125440, 5105272505514992540335450544384099680780288, 5105272833861217186151316005359415585669120, 5105272833925233541462841590134999097540608, 5105272999113417082503529013871142141689856, 5105273132418286551903904645862954515824640, 5105273168115327454330844592010116779212800, 5105273498799733632267679184046101746417664, 5105273797032284444361841097766484655996928, 5105273828510584149229233595732618651893760, 5105273832794609352700534858090727134461952, 5105273834417835946292782606707255588945920, 5105274327043338652785695010545578339729408, 5105274329629345877251282989598852878696448, 5105274329640120907353222939511574855942144, 5105274461646282336819777549670014796169216, 5105274793953281283048745775621779866255360, 5105275458567279175506682227525310006427648, 5105275491416543004520904823210128518938624, 5105275658795226782755972652732574701977600, 5105275661777374819792882319753568992624640, 5105275662689449426657093374130446948892672, 5105275790874278121735650453477075076513792, 5105275825922281916845736946057925298749440, 5105275957027777594850134566452957611556864, 5105357570198837152587653262360572334178304, 5105357738623966501311124462818547013255168, 5105357739674215023600212521958565618909184, 5105358867624014678977706941418342598049792, 5105358903386339587316400701742585076514816, 5105359901610481243037925204336491181899776, 5105360030698510990779095732249520343351296]
theorem ok40 : (∀ l ∈ enUs40, lineOk l = true) ∧ keysOf enUs40 = keys40 :=
  goodChunk_ok _ _ (by decide +kernel)

def keys41 : List Nat := [5105442646631901353055200188109238646603776, 5105443273601747021135636333166670399930368, 5105443310596862138196283186446456745623552, 5105443938215744913593572785070200540102656, 5105443973588267262362086004434206782914560, 5105443973912785816020512731217362803490816, 5105443975601296415524514294010971473051648, 5105443976508934245287926545482610968100864, 5105445599750739644738413914829025890533376, 5105445638368447530091194402024592339107840, 5105445797444653702131473766444380878536704, 5105445798752926066808813636281623946199040, 5105445798753502946867120623489726938087424, 5105445932057738590967382140780790960619520, 5105446596671736483425318592684321100791808, 5105446762825235956539802705660203635834880, 5105530541508604076958869225567943663812608, 5105530670342469879354279758480883832586240, 5105531002649468825583247984432648902672384, 5105613414785207490367368020470386284036096, 5105613451853212516941138064336233064038400, 5105614110877505087692696970340050420105216, 5105614115161530291163998232698158902673408, 5105614577859703802168756811301564029337600, 5105615242473701694626693263205094169509888, 5105615278567660835969626116132612834590720, 5105615941224262600630619268013344927252480, 5105615945056370365120556748737878717104128, 5105782891354670067141163255870572027969536, 5105782906282523535428792687895748974477312, 5105782924780081093959116114535642147323904, 5105782928674303737860236835933514394238976, 5105783090284543459756746773945212641214464, 5105783223661669013370131481822337098055680, 5105783389815168486484615594798219633098752, 5105783587520491399279729511027044949950464, 5105783754970797436427692301734054864093184, 5105783759117282549774230674029771048878080, 5105784253683558325216562291559546407092224, 5105784253750232537792433587785338338672640, 5105784256279706754483976105824794571702272, 5105784256604225308142402832607950592278528, 5105784258226818076434536466523730695159808, 5105784260173929398385096827222666818617344, 5105784719043164271400488498605279913443328, 5105784753187460807593069226633179433009152, 5105785087371722673714823397487363267493888, 5105785254823296361463014417595869884841984, 5105785416433536083359524355607568131817472, 5105785417731610297993231262740192214122496, 5105785914966290586915985770420527819653120, 5105786081120423885330583998097158706298880, 5105786082085105992104266572636149845590016, 5105786082345608190451167714643722354294784, 5105786082409624545762693299419305866166272, 5105786214424659529430845515388222728830976, 5105851845056951409652070140861824070844416, 5105867994398255667599701777838032027648000, 5105867997643441204183969045669592233410560, 5105867998292478311500822499235904274563072, 5105868294253399247985997325474195040108544, 5105868328327847382120803637705577200615424, 5105868658038697899082358049392094106091520, 5105869322652695791540294501295624246263808, 5105869323301732898857147954861936287416320, 5105869823779063423163713271570838692298752, 5105870454248892398474290794160667995668480, 5105870987757394612927829625669165823033344, 5105871151711645326590303550456033108295680, 5105871155858005407992874099343984481533952, 5105871285016389764046711359040080670883840, 5105871322011504881107358212319867016577024, 5105953064340948794898714167923577928548352, 5105953070182282760750395250020386298920960, 5105953712079981897118460827102994998755328, 5105953732200132223940917887658668274483200, 5105953732849169331257771341224980315635712, 5105953732915720987769753384803557233917952, 5105954361766126321288767846981348192419840, 5105954396880832801595629199534313026093056, 5105954397527183579027233377904093967679488, 5105954397528451229627461607305590670884864, 5105954397857526640570497818880650367729664, 5105954399085759992007841427044290558689280, 5105954401357389867616828514526382702723072, 5105954860226624740632220185908995797549056, 5105955391788015633135198656718557501456384, 5105955392112534186793625383501713522032640, 5105955394121270418241748375161349613813760, 5105955394384164062402612470983805666066432, 5105955396655793938011599558465897810100224, 5105956023301121052433608976740173542850560, 5106021986240411878883801828165539954950144, 5106040096971854448362570142536736274644992, 5106107056832142113499667671817397897003008, 5106296637975040937126040577299370381148160, 5106464120702509836526026456988965704564736, 5147876717371687309889796904879647444959232, 5147884360432663073156066101770244056940544, 5147893000414635675109239976516135879180288]
theorem ok41 : (∀ l ∈ enUs41, lineOk l = true) ∧ keysOf enUs41 = keys41 :=
  goodChunk_ok _ _ (by decide +kernel)

def keys42 : List Nat := [5147893200711036414770854789404222547820544, 5147893204536805926259651123121272821645312, 5147893831182133040681660541395548554395648, 5147893863958506960182759946494306632597504, 5147894696088094895700413003281926901989376, 5147894697971189862339447779205279513575424, 5147894699918301184290008139904215637032960, 5147894864124689335453931892181162048618496, 5147895028408404173231777637949407355731968, 5147895360638076432846823870409873530290176, 5147895693009215528391246219164712024670208, 5147895991177626191169954010082021509955584, 5148224642799584011619529476377675825152000, 5148233615088555559801671577075332717477888, 5148234113549053979145123916002980322607104, 5148234959244404813005173912907569944330240, 5148234979431106796339613017041820138340352, 5148234980338110800802911153812711281786880, 5148234983583296337387178421644271487549440, 5148235312714196704744317882146046676566016, 5148235314656237424293965325238995987202048, 5148235973689403549247121837053290265706496, 5148235974043078066710797840070870460006400, 5148235974082375235317872951517268259373056, 5148235974083642885918101180918764962578432, 5148235974083765441981990433565979975876608, 5148235974086812012418671754422506720591872, 5148235975376012672850781055744653880459264, 5148235976676758362089265813510510272839680, 5148235978621198209435048323576214086221824, 5148235978947618238993817394461615161606144, 5148236107391047656518933271713570743123968, 5148236122318901124806562703738747689631744, 5148236145099216236207959163335252641841152, 5148236306320921049134516789788211356368896, 5148236306393177133347525865673523439075328, 5148236312811292122303051325451331767894016, 5148573434109533530543751148914544021078016, 5148573434692018981348622558902279143948288, 5148573930261006381571483633015946737614848, 5148573930295232947777645826856357724160000, 5148573930301571200778786973863841240186880, 5148573930304740327279357547367582998200320, 5148573931529924632399941263914146646196224, 5148574229762475444494103177634529555775488, 5148574431613015820035527236757574354206720, 5148575060529972810066523742513942230990848, 5148575226683472283181007855489824766033920, 5148575260831444152129051473008015712452608, 5148575260835247103929736161212505822068736, 5148575558990471229409976081441589836120064, 5148575590468770934277368579407723832016896, 5148575591117808041594222032974035873169408, 5148575591442326595252648759757191893745664, 5148575592415882256227928940106659955474432, 5148575760191974497634546686998322593398784, 5148575762139085819585107047697258716856320, 5148575763112641480560387228046726778585088, 5148575891297470175638944307393354906206208, 5148576259626028577953279206275438260256768, 5148576423905940463930440263839193457754112, 5148576425779528051067763319251320795299840, 5148576427726639373018323679950256918757376, 5148576589985916202231687071528267206885376, 5148576592906583185157527612576671392071680, 5148576595178213060766514700058763536105472, 5148576888218467014325848985248650116464640, 5149075348716886357778187912896255245680640, 5149085151773355271532750578473324813221888, 5149085484080354217761718804425089883308032, 5149085681712153395743595415367106414247936, 5149085683010227610377302322499730496552960, 5149085687878005915253703224247070805196800, 5149085688527043022570556677813382846349312, 5149085850461801298125493342608237113901056, 5149086678695265113841683333895740081569792, 5149086681229298663697913907487649789116416, 5149086686421595522232741536018146118336512, 5149087010940149180659468319174166694592512, 5149087012302239750604700811082374288769024, 5149663199798022236822979621568664228069376, 5149918411573212940670577152524238054227968, 5191449178428519593542638418848252432482304, 5191449309534015271547036039243284745289728, 5191450006996643167719080972130885046370304, 5191450010169572620090339164077133169426432, 5191450344099164334611441023944678342393856, 5191450819843363997865022488051404507185152, 5191450971069010002691877169002110095720448, 5191451839480659592641798040727621157781504, 5191452005634159065756282153703503692824576, 5191452166919880233994365364932045919223808, 5191452499299135264436342666769123072016384, 5191517930929297667828974698282771718078464, 5191789296655729069298127908165079518937088, 5191789297304007319370899423622878396940288, 5191789793751476585551923472973761311932416, 5191789961852087380616967946648579970433024, 5191789962501124487933821400214892011585536, 5191791122330435263150942923214509551124480]
theorem ok42 : (∀ l ∈ enUs42, lineOk l = true) ∧ keysOf enUs42 = keys42 :=
  goodChunk_ok _ _ (by decide +kernel)

def keys43 : List Nat := [5191792084203428306727761108488954539147264, 5191792288001080004219745528310935461036032, 5191792748817426199185697560392484679319552, 5192045800597123752545001622661585549918208, 5192113425071409310140035603845777312448512, 5192131369649352406504319805241091097100288, 5192131404764044031530709733230757141282816, 5192131734472223073887486294284041736683520, 5192131735381762379551240889857926286540800, 5192132366570349245191224483096386307358720, 5192132565500222637806808001171026920603648, 5192132732627277771896572294496377517375488, 5192133695798345030107097386903446587703296, 5192283566254869779371767291149493196554240, 5192385455669680469269602125428429544226816, 5192386118661085593435404943416179581517824, 5192557221068501998927101362428028412493824, 5192623848621790717835230665756924964765696, 5192641959353233287313998980128121284460544, 5192643487580823247858008019092140854345728, 5192708919213520952451096509408782906818560, 5192895177286430313787787155373104690102272, 5192896506514426098703660059180164970446848, 5192896544220059377192229491998853462753280, 5192981410952656860205041789856140377456640, 5192982075566654752662978241759670517628928, 5192982772957026564622014098761958736003072, 5192983404794650537578851145566730797973504, 5193049201580441890914559884016214675030016, 5193474554539093063993889102275504385294336, 5234989003303447556536420804382180107091968, 5235005485276269314371447394093309154557952, 5235006153135452743413651113828399500492800, 5235007114034890126015189118753376426786816, 5235007612495388545358641457681024031916032, 5235008110955886964702093796608671637045248, 5235159144486908025768152491685895991197696, 5235329285670368494999884178989611875303424, 5235345772909148257527336379728559840690176, 5235345901020315806448295476577865379610624, 5235348261243756564185879370471603030720512, 5235348263190867886136439731170539154178048, 5235584497445559198847481709945185701462016, 5235601943563003875868313572412851880984576, 5235601978611007670978400064993702103220224, 5235603937404997553242122928123442301501440, 5235669568037289433463347553597043643514880, 5235685684926738325568306512257649542692864, 5235686017233737271797274738209414612779008, 5235686217461684879046565163416679308328960, 5235687711545105922443215273066998041411584, 5235687712920506823690844173690921019244544, 5236179991587670841158542615508191295832064, 5236196274630619206377985687144679730053120, 5236265062179401075774408459160049237884928, 5236281214829273400317718834042652560719872, 5236281875883845818679147803753953902985216, 5236281876134703226179976548039787334860800, 5236605344546322014237871833767481006096384, 5236622790663766691258703696235147185618944, 5236690415138052248853737677419338948149248, 5236706532027501140958696636079944847327232, 5236945626913242952701335208374912774307840, 5278561595465775518193659938745817407422464, 5278564087768267614910921633384055433068544, 5278564420075266561139889859335820503154688, 5278630216861057914475598597785304380211200, 5278715287452788149091464441437162322264064, 5278732068956234933654359852001298361614336, 5278732105951350050715006705281084707307520, 5278732567416733352997812190928945966743552, 5278732600193107272498911596027704044945408, 5278733765863752013567714201124129954856960, 5278733768135381889176701288606222098890752, 5278800358044518383707330285089020264316928, 5278902210139695402886091539305014245720064, 5278904370135188553374385007991487201280000, 5278904403236081026533911139873401300058112, 5278904536288688026488869120967369736323072, 5278904702442187499603353233943252271366144, 5279073015937153764575759678512260269998080, 5279140640411439322170793659696452032528384, 5279225711003169556786659503348309974581248, 5279497039667809152739215992964489699917824, 5279498898896851638801359795408359143768064, 5279499365816801776341993574626845190520832, 5279500362737798615028898252482140400779264, 5279582312503051448967257010203370434068480, 5279582774873537279813018288519877782142976, 5279584634040331188939736029220719663513600, 5279667546980454232889304567553508876746752, 5279667679311768041314400019195853189152768, 5279668177772266460657852358123500794281984, 5279668542206602219071066535607711901417472, 5279671002381757503604082278713503890014208, 5279736134553550964481854565259457626898432, 5279752749903498275930265862847711131205632, 5279753248363996695273718201775358736334848, 5279754245284993533960622879630653946593280, 5279754444288390661389443702992103345750016]
theorem ok43 : (∀ l ∈ enUs43, lineOk l = true) ∧ keysOf enUs43 = keys43 :=
  goodChunk_ok _ _ (by decide +kernel)

def keys44 : List Nat := [5279754448758126677794180572669478847905792, 5279755242205990372647527557485949156851712, 5279838019100583349503288497791053665927168, 5279838023643843100721262672755237953994752, 5279838651262725876118552271378981748473856, 5279839648183722714805456949234276958732288, 5279839680311059526989702900766722995781632, 5279840510429519785245270012079823629844480, 5279840645104719553492361627089572168990720, 5280007498590712909202924274239643595046912, 5280008823924486050217676456648831628476416, 5280009789367183184037188636537992842838016, 5280010287827681603380640975465640447967232, 5280092866116919741279245124479260364374016, 5280093198423918687508213350431025434460160, 5280093895226734446261464879839591717142528, 5280093899059476036051516475264873858596864, 5280093900357550250685223382397497940901888, 5280094859958913418653054480189850784890880, 5280095524572911311110990932093380925063168, 5280095690726410784225475045069263460106240, 5280095722204710489092867543035397456003072, 5280095893875025374400606011324932340842496, 5280178801620316258614890462324231818444800, 5280178965756983626766261597518859553734656, 5280416699287392841408781314474321163321344, 5322101289235207803183044703884712769224704, 5322117572278156168402487775521201203445760, 5322120230734147738234233583135321764134912, 5322186359826938037798910547536570711277568, 5322441571602128741646508078492144537436160, 5322459848487070784239760505839223392174080, 5322460180794069730468728731790988462260224, 5322460513101068676697696957742753532346368, 5322460549122628132783063630673071816310784, 5322460845408067622926665183694518602432512, 5322781853969049680109971453099576305647616, 5322799798546992776474255654494890090299392, 5322800961621489088275644445326067835600896, 5323037065744240383957568984055150131806208, 5323122136335970618573434827707008073859072, 5323292277519431087805166515010723957964800, 5323310388250873657283934829381920277659648, 5323310755605876398622989547914535569981440, 5323734411981529045447391143834149707579392, 5324228054028463668579690795181161320546304, 5324248158601899915432268465262948060758016, 2012023043812686449053977044090729860694016, 2012106454168769004050703041277042727321600, 2012108611251688589058394779914342078873600, 2012194013827934389669387287906743230660608, 2012194181266838999055531726281932210700288, 2012194312308177196583925228550042511474688, 2012194345156949817739765562659077990907904, 2012361001658271944907512961656198558384128, 2012361664972918068611199993983408720052224, 2012361664977229813768030973480882369724416, 2012446734916753814566472790062686512611328, 2012446735881435921340155364601677651902464, 2012446736539471614802574247386231427039232, 2012533303489296862980680038266477192675328, 2012702610980920015617590896366750514806784, 2012703609852826176295583481604372361641984, 2012787015978119944791766215900988973252608, 2012872085919553809017886862882252282396672, 2012872090138295241109043316301340442886144, 2012872752485722484366943024668231266729984, 2012872754430317352270574718633007653060608, 2012957159110467901877494273233411041656832, 2012958817409279396403751420519742617681920, 2012958820320445189528076667958296024449024, 2013128960867552485085472907992316294201344, 2013128963135991214819010961114878581932032, 2013129457041201793976963694338261922086912, 2013296779134523439977747514996572150562816, 2013382511421983443540312382028633765576704, 2013382511422105999604201634675848778874880, 2013382511422107237544240920056123677999104, 2013382511422122092824712344619422467489792, 2013382511422124568704790915379972265738240, 2013382511422125806644830200760247164862464, 2013382511422129520464948056901071862235136, 2013384337488021052911825382677800451833856, 2013384337815709971010861968344973129547776, 2013466918370878789586723243696157708255232, 2013467581686787606756428306398108723445760, 2013469244526194529901030618161589839200256, 2013469244780230967422744218993364222083072, 2013554144099832206247092730537540384194560, 2013554145396636294400492837508117965045760, 2013638384561057026025144712801529213485056, 2013722790221101767661424106123594362257408, 2013297438230301827856348035907037549297664, 4233301263833054478109806132884515978215424, 4233384005032385472375080218497488265412608, 4233640049851268940268969884268394880958464, 4234235379463099274426980072277440343310336, 4234319784794985681739873076340827803877376, 4234322107360187695392928321240389933596672, 4234322773930804289303136854354081471266816]
theorem ok44 : (∀ l ∈ enUs44, lineOk l = true) ∧ keysOf enUs44 = keys44 :=
  goodChunk_ok _ _ (by decide +kernel)

def keys45 : List Nat := [4234322778726326509966528680216109697204224, 4234322940724467315532876815085799125024768, 4234322940730805568534017962093282641051648, 4234322940733465901678442244304040859009024, 4234490587008153549906963147309314511732736, 4234660398158156083736354761132708426940416, 4234662888194706883528161252807109075009536, 4234749125756439842393586452338549740011520, 4234831369143792074819452408539433182167040, 4234833362986338833337883817868193328791552, 4234916274556842156023286181460838474317824, 4234917105639850823528293046243241142255616, 4235001679727701340252978632177612876677120, 4276770342038175514906324382937192079556608, 4276772835644435245479806606201524477493248, 4276773165686646166493902479295471572484096, 4276856412407411979437755922819943332052992, 4277113780672408098842478512622857399304192, 4277451072276972346545341968365151888343040, 4277452402475475984059774446284878586576896, 4277452901198890584826734418756151992647680, 4277452902883598232530051293345270552592384, 4277452902887401184330735981549760662208512, 4277453730743230153122881434599010886221824, 4277705787212989748741392564907361509048320, 4277707116440985533657265468714421789392896, 4277708113361982372344170146569716999651328, 4277963823604643573836475278161170298568704, 4277964158181370919774088247492782457880576, 4278219535464193115919887011361668535943168, 4278474411679734558517358205476275367182336, 4278474411679735796457397490856550266306560, 4278474414927450693580643631203339372331008, 4278474576534441811775349890760092327870464, 4278474581402920790713986317743025540825088, 4320326649215373155408819064674169061900288, 4320329306377093462407542653360155649900544, 4320924617742369485511233189420261225529344, 4320924636638603157813334762830867556466688, 4320922974130824002337688244633836298698752, 4321007711114808363546061819187797879160832, 4321008879309345449669269162664159870976000, 4321262590583000121164691124191606635233280, 4321519632316549602384580033091974339756032, 4321520466656913995000068739188470503702528, 4321773684907652545070871237987278465794048, 4321774676315635685425166963353136536748032, 4321774676957080506481083179693492249034752, 4321945319852551044608595050657727060639744, 4322030385901652882262225541744115966803968, 4363884124655193457476353124172569042223104, 4363885449332198555628914653198700003721216, 4364137504453302944548557523722323227574272, 4364138833681298729464430427529383507918848, 4364222578363165570503620953284447169413120, 4364222910658839841253206520481435051098112, 4364222910663905726425571301804382160420864, 4364223408154011468029147233042150352486400, 4364224573178657963610903361851860291944448, 4364225568142402275545421843796245753102336, 4364225734295901748659905956772128288145408, 4364563189461109960714338822756288818053120, 4364563689549901862230833971765626993115136, 4364564852301156229114347609617329993809920, 4364565683064721604561949460003402771595264, 4364565683067256905762405918806396178006016, 4364818733540006690286405468132396043862016, 4364819399388696267366637357093715106070528, 4365076940630445009618217351456006623723520, 4365329161307361517165048455192016014278656, 4365329823337240043717307132961492779925504, 4365329826577360178699537465321775758835712, 4365330822520363092331605033928479557550080, 4365498633920986698402411022152050300420096, 4365583707787058433407793409869892621959168, 4365586035275457613675938175283204154458112, 4407440597975274108537595902193777743233024, 4407609739650320500912088884455813775622144, 4407694647585365443143041419160444974661632, 4407696973801046145700841276845226276683776, 4408375547289048715182850070902512063348736, 4408376537977499014743147077567652565090304, 4408544854144672744996661100491710920654848, 4408630426103129049263595148593197268074496, 4408715827706319568131749249710057943203840, 4408885964676661312005797206198469043159040, 4408972198335988818584114416409491911213056, 4409055947493868298467858019823922236620800, 4409140183097456989670734890944566680092672, 4451335032396867397757521110257315048587264, 4451337689222677626856313902870523874902016, 4451675477597824632454039228134846793515008, 4451678306165678579838019397471679633424384, 4451930356805647889250010212200772146298880, 4451932688146944910249026539221157433835520, 4451933682479891812184346956023710477189120, 4494893164339435059836694418380805042601984, 4494893330740703280053990251856647694581760, 4495149379513260224295641741347182098776064, 4495487162437647060256341317386195037061120]
theorem ok45 : (∀ l ∈ enUs45, lineOk l = true) ∧ keysOf enUs45 = keys45 :=
  goodChunk_ok _ _ (by decide +kernel)

def keys46 : List Nat := [4494894163193599063871648933518572641058816, 4495487832895514219766415310189526954016768, 4495488824300465644964501139262157069746176, 4495656639592764214335578536277857661878272, 4495657309790271802149097881794390555361280, 4495658969057296982835290117554840386142208, 4495658970638691106620006295921977634848768, 4495658970673694132030184016871685506465792, 4495743872204545688188030884693088793526272, 4495996926244469489366740841699366588645376, 4495998251911509430445233802946967240704000, 4496255290072049521517536751898638057209856, 4538108199034815286958031514695431769554944, 4538109356592003486430530368863547313618944, 4538110021848559108039700593974567478755328, 4538450968114523000432379038041388779307008, 4538790587238540396074024946318674273239040, 4538789922620095581209811485541871537618944, 4539212788477304990124493561617231258845184, 4539300679769782587124651093836653322567680, 4539723874691403841826494141229231169863680, 4540151055338044374160729172309129815916544, 4581919552802330453153660815052803865051136, 4582088360854842540411358375452998597869568, 4582175593398541025923232664889602594570240, 4582175593398666333502287360432819239124992, 4582430272565261441479334239399337869180928, 4582686347947826040595673892294582824075264, 4582769761221423548646610847111346812616704, 4582770260333486003704375305698639530164224, 4583112033224902585833887680139533112836096, 4583280018947887446178034733392165261541376, 4583280514164966634841671036902473818177536, 4583280681936763459381927298525435942404096, 4625221316696219704750302094813374839783424, 4625221642521212616709125610984223063146496, 4625562258492447580738243669202820638179328, 4669117405836166413132518357100478802690048, 4669458019215817750239318593188668058370048, 4669969773280232427114809429930079296684032, 4670307726840395085192690890807078400557056, 4712331771047798404436936488986320775938048, 4712332769591530652573431130853719670784000, 4712334261403315352607959214755861581791232, 4712502740405143111174131385707194577059840, 4712502743003316810345816082102177708900352, 4712671719485268864764951941623429944311808, 4712671724350370632055242446670554273415168, 4712672056982009450066487366672415478251520, 4712672716736471518541630865604169678454784, 4712673883052983964314670463857879871913984, 4713015160073078531476853973183829513338880, 4713268046926868710218667703658290293506048, 4713268547724914836382975058945858609348608, 4713354613613281624145489460264577445920768, 4713522595135278328741206945557124629921792, 4713523422656875866326692578186360304697344, 4713522425402553879763060382818160777101312, 4713522425402571210923610378142009364840448, 4713948441937507023788416345282555068547072, 4713948943062756795556360417169535605407744, 4714033517397015563280683090681753319243776, 4714035011220075533494910591675838043783168, 4714034842148423444895549949535755517820928, 4714374127272374084513277256804044581634048, 4714376127287837326458917366226053704450048, 4755889406805997434824446902963513625411584, 4755889722491561710860871216490506266607616, 4755889745605391486186181261327859175129088, 4755890405669804991765434530442745401573376, 4756228362532831288737967696919404707053568, 4756228362532961538405772977066687550455808, 4756228362540559748403226325975599939584000, 4756228863912865213811353739324198697828352, 4756230004858482649324334591097938034819072, 4756568642302969972633903142560839959052288, 4756569974138643122403054607133283947905024, 4756569975100163530316402320450182723928064, 4756569975105240576291933784029670720667648, 4756570306444945108389905163990280811053056, 4756570310339869939928387568139472694411264, 4756570310339869942894033719381609888612352, 4756908426471796166001157664350441685647360, 4755890073693030264835959348961146415611904, 4757078905216177095152311436220897372930048, 4757079235576063481490680016093451420434432, 4757080396380055205178792130112420325621760, 4757080728701132005534513700550338236383232, 4757080731932368433756113303444335110389760, 4757080731933643511996577245127481208340480, 4757081396553339920508282813801082199736320, 4757080731942380892793853459107719227113472, 4757081726583017902714730547782333669310464, 4757081896308749339632129401894276442357760, 4757420012835036496134815681373112077647872, 4757589494928787929119031112806516184317952, 4757590824802162708535669171467561593733120, 4799446547336983376076297289807897867321344, 4799615027641459426500160443461723135934464, 4799784170595696496149101142143072009715712]
theorem ok46 : (∀ l ∈ enUs46, lineOk l = true) ∧ keysOf enUs46 = keys46 :=
  goodChunk_ok _ _ (by decide +kernel)

def keys47 : List Nat := [4799786998454043567896079483079711214534656, 4799700264376536787968330996455015895269376, 4799702093047961573120444604361002910220288, 4799870408484478578133029189119202656518144, 4800124290994133958567376237126572669140992, 4799954814459674136404375128999159662641152, 4799955313180532390990210791202766377189376, 4799957141265801233120971836605942365945856, 4800297259100547816161856502751774998790144, 4800380169049649268872917768253092998938624, 4800635043974085139370757972167193100550144, 4800636704207065014683908318013680273850368, 4800636705506544291262204131758314862149632, 4800636706807793822096678039296055198089216, 4800636871661807828932669911625928649211904, 4800636872961287105510965725370563237511168, 4800637207210973087211263767464659034046464, 4800638200887389630771936323896935637319680, 4800975326335310037660530800765103815786496, 4800976991119147180265688211687541384937472, 4801062889233823069169821467088000148045824, 4843086765919931917653323428076417229783040, 4843171169309121734145208381968477086285824, 4843255745005750846263642043331029596372992, 4843256412213988264448414253115913451601920, 4843342977869544725673576395828575042797568, 4843851241424432982880477989053249739554816, 4843936312016288525075398528248324326162432, 4843936972732908257218520906745489303535616, 4843937971925530989312762861494375175684096, 4844021377408110770159823353304154290257920, 4844108112780657573684990280007695938355200, 4844108114405783167297501801965919649398784, 4844108115056104018435094194877302082371584, 4844108115310131790376532798047152171384832, 4844277258992702216558751983803476488486912, 4844449224296299932992074044051279811969024, 4844449224298194964770003330167144838070272, 4844449224625244129568112755419323475951616, 4844533630267698719486802799228218161233920, 4844616876750130402002325277463187862585344, 4844616876750142781402718131265936853827584, 4844617370664216999152695991111306176364544, 4844701443029899150386537846545913361727488, 4844787676702383483702380078318564122034176, 4844957818856296098230903497622575963439104, 4886557839588496670238348857215847889895424, 4886558832619071575476347936355271057604608, 4886558832622224374224798794677379234004992, 4886558832622733167580945085970362774061056, 4886558832622858199524912909378127585607680, 4886896961739963624670637751956027694120960, 4887152834945584192378085135380368995647488, 4887152834945591584260561839373064832286720, 4887236905048378520089583108240253120413696, 4887493114391823012164446393782129257349120, 4887493117961546909447768954481243869675520, 4887748329737984218914926863373641113927680, 4887748825244102834242679900226556683878400, 4887748831769334298917490744430836433551360, 4887748831776435391884847747547086448492544, 4888002876573393301926011557001581874380800, 4888002876900469439705601879432679485603840, 4888002878530023398713059325706344052293632, 4888004534865757882780608955180948993867776, 4888004534868294436645443392951771075706880, 4888004536163689456256859532217249494466560, 4888087949763050885645744306373718022553600, 4888087949763188538775268906510066766577664, 4888087949763188543610972184968583465402368, 4888174679291869547283252225528796394029056, 4888175178408233551200256175619099609530368, 4888257587303346012564796999377730259648512, 4931813565410653040090444583401762955722752, 4931813568652525604926568611462599814414336, 4931813568652666730091047144813938314575872, 4931813568652667968031086430194213213700096, 4931814896265026010391541623364596053049344, 4931814898849147573581287311364479843827712, 4973668464641257993385120486747651811835904, 4973668464641265435532466034404851303055360, 4973668628528701795520207295922736367403008, 4973668794997846268091520529871298000584704, 4973668795003044378316479841645599423201280, 4973670289085704088588969442426855194886144, 4973670289089648420004683493964907209031680, 4973670292335326402274035513163653861867520, 4973670456204661856881768063374090620108800, 4973670625541723449364932499477329856167936, 4973754697979791668515908395726113532280832, 4974008911217113286306005357160920898338816, 4974008914777305294325549330356922243612672, 4974011738742815010925290239632918213296128, 4974348862208617344543770582565325952253952, 4974352352444959109530292246854725049253888, 4974510494486444926021476739283758153203712, 4974520167410973822746921964815263469666304, 4974521824476866362787140339597461669543936, 4974521974005762039208509966644830017683456, 4974604740265400305449540343093342985256960]
theorem ok47 : (∀ l ∈ enUs47, lineOk l = true) ∧ keysOf enUs47 = keys47 :=
  goodChunk_ok _ _ (by decide +kernel)

def keys48 : List Nat := [4974859452930421657336717966854208813531136, 4974859950405464098107239764849783075766272, 4974859951708590590244285871039363774676992, 4974861277373225245475747506605197650558976, 4974862444663934881276462999096059651686400, 4974944359310823122091872105551997939220480, 4975200234719478043295096338524154168868864, 4975285802810703494403065977669542085656576, 4975287461100512688963639839596807230324736, 4975455443580849794639757933039939076751360, 4975798050081198902343114140929968239017984, 5017226265901376421362257105353195762221056, 5017226265901401180163042812958693744705536, 5017226929216673962654585284464904599764992, 5017394582957191791476349219430566551617536, 5017394584261596831470961561289024755204096, 5017395743769575510690776926333076619919360, 5017395746687046386830015055019274970071040, 5017395913817290200066146048425182007132160, 5017397402705860790479238520385343030558720, 5017398571941013711593538648735278029602816, 5017566713121827332106351768603015423983616, 5017566714421817877920872444401183350587392, 5017566715720512539881573610748108485951488, 5017567217741212619308313726071088290463744, 5017822258504007527997438201308522246832128, 5017905501397649523049517105095204090675200, 5017905501407243558353978802225672303411200, 5017905501407247272174096658366497000783872, 5017907827556222806401488167630838844882944, 5018079136347167908361468097663243787436032, 5018162546376324136124239966104144217899008, 5018416422116252408658431034628727864557568, 5018417259378532865699399230471001430032384, 5018500496430802518758579205372353030651904, 5018500496433473993363357056005585340727296, 5018501161047473123761332793289390380023808, 5018501660162713078122665618090085190729728, 5018501825661467302399151389052095822823424, 5018502825176086222457633488313313665220608, 5018502827457223429211299511721464095047680, 5018502827457223477568332296306631083294720, 5018588892049278328460760066962536873852928, 5018755708208039537491115469922335109152768, 5018756870640959806592423794104017834999808, 5018757036790713273148030346368055620141056, 5018757038737887966990054905928329841344512, 5018840782049881072107565109519576872255488, 5018840782377077542023385074381520784850944, 5018840783675143092998820142380166175260672, 5018840784317074170615753394096430555070464, 5018840912759869762840755156647637784985600, 5018843109812080402624614571853427305873408, 5018843602767805101575660290014976332005376, 5018843605352569465673877057252610692612096, 5018843769568953702184240104655399000473600, 5018844106089113212275657284508947086049280, 5018844769405055459200476109983976630779904, 5018928342349347656717474886353686190096384, 5019268291687851425478139682149963952816128, 5019269290297992688969160037499616184238080, 5019097323051166084970693200179965923950592, 5060780750573018279232108560551109392859136, 5060781581341709978374763059398298212237312, 5060782410802836455170186098542712874598400, 5060782576315538549869300249062011939323904, 5060783072183820237510109141477490998378496, 5060783409999899946566876666785338690109440, 5060951884714669548565498393705060348461056, 5060951886725938350992062872530918483951616, 5060953514122327467526093571931439661842432, 5061120862889676845003992772810647378329600, 5061122691226449023483773800655698628968448, 5061122691233558513129389739574444299386880, 5061123688795345302591428667604673585217536, 5061123689443041720845736054333269874835456, 5061123858843079799007426355781177358417920, 5061376077581107382344630594604130608611328, 5061378401142826368821631253191989756166144, 5061378402110044030670192405606100990164992, 5061378403408122943189634335187697980669952, 5061380065265095975032288591405586348769280, 5061380067537857327837182516458936292343808, 5061461148789414698507247935634170655539200, 5061463309149357396561157357250945782644736, 5061717686915034324752637628999288485838848, 5061973400389086696971453036019101049290752, 5061974727667286067991555589310969005735936, 5062226782536899499745342472983462279118848, 5062226786746137034041147696023348319354880, 5062226786746137034500121135321315673112576, 5062227444543965235821578853066739441205248, 5062228109163595511255248223065967305949184, 5062229109649947820372666030619418205093888, 5062229107705349364377201720435251290832896, 5062229107705370298136694167354040502976512, 5062229110950554596780922149805325809614848, 5062229110954349127747419548032994115584000, 5062229110954349137418826104950027513233408, 5062229110954349137423548471432897158447104]
theorem ok48 : (∀ l ∈ enUs48, lineOk l = true) ∧ keysOf enUs48 = keys48 :=
  goodChunk_ok _ _ (by decide +kernel)

def keys49 : List Nat := [5062312185104125393595014828157496578801664, 5062399748318449588997189007003877023678464, 5062484820532134772314166363135973487804416, 5062653264421937428698569315209773152468992, 5062824766380146520125890791967505285906432, 5104337226812494524105591455153026056060928, 5104337226812494553119811125904126249009152, 5104594264993173169862566851344629137145856, 5104677009034699365903420507760425024094208, 5105782926431829826056499024685846423928832, 5105784252129475634578560172817233637015552, 5105868663584669275080861680940170629611520, 5147896025326865710718225857001709159579648, 5149085188831997757589405291320109516718080, 5147893869214961299193591693151724973850624, 5147896189847143462363272061021527711154176, 5148235974082525137283801887076415126372352, 5148235974080601267241577001583337814360064, 5148236145101895382655988288405227637309440, 5148576922364023937892333697985964704530432, 5149085183964847088312922077372143064055808, 5191452005698322970464091703969860093476864, 5191452499292163186135087405060891204386816, 5191603001521027902444840541934629660131328, 5191789959001141180703680022682494461542400, 5192130073270759099887069459709638031179776, 5192641659892329043598682776357432968871936, 5192895213694130771188660168858184385036288, 5192896544222735914778339888699069442293760, 5236350132771131310390274302811907179937792, 5236369606877907708432845023807606374793216, 5278732600256489802510323066102539205214208, 5279582812590095379148281202264551045726208, 5280095727791880509598788630132116833697792, 5278904573996998023902421892680650414096384, 5322798006584695438447119634141768641937408, 5323310920533557741316775829643106105425920, 5324247826294900969203300239311182990671872]
theorem ok49 : (∀ l ∈ enUs49, lineOk l = true) ∧ keysOf enUs49 = keys49 :=
  goodChunk_ok _ _ (by decide +kernel)

def keyChunks : List (List Nat) := [keys00, keys01, keys02, keys03, keys04, keys05, keys06, keys07, keys08, keys09, keys10, keys11, keys12, keys13, keys14, keys15, keys16, keys17, keys18, keys19, keys20, keys21, keys22, keys23, keys24, keys25, keys26, keys27, keys28, keys29, keys30, keys31, keys32, keys33, keys34, keys35, keys36, keys37, keys38, keys39, keys40, keys41, keys42, keys43, keys44, keys45, keys46, keys47, keys48, keys49]
theorem allOk : ∀ l ∈ enUsLines, lineOk l = true := by
  simp only [enUsLines, enUsChunks, List.flatten_cons, List.flatten_nil, List.mem_append, List.not_mem_nil, or_false]
  intro l hl
  rcases hl with h | h | h | h | h | h | h | h | h | h | h | h | h | h | h | h | h | h | h | h | h | h | h | h | h | h | h | h | h | h | h | h | h | h | h | h | h | h | h | h | h | h | h | h | h | h | h | h | h | h
  · exact ok00.1 l h
  · exact ok01.1 l h
  · exact ok02.1 l h
  · exact ok03.1 l h
  · exact ok04.1 l h
  · exact ok05.1 l h
  · exact ok06.1 l h
  · exact ok07.1 l h
  · exact ok08.1 l h
  · exact ok09.1 l h
  · exact ok10.1 l h
  · exact ok11.1 l h
  · exact ok12.1 l h
  · exact ok13.1 l h
  · exact ok14.1 l h
  · exact ok15.1 l h
  · exact ok16.1 l h
  · exact ok17.1 l h
  · exact ok18.1 l h
  · exact ok19.1 l h
  · exact ok20.1 l h
  · exact ok21.1 l h
  · exact ok22.1 l h
  · exact ok23.1 l h
  · exact ok24.1 l h
  · exact ok25.1 l h
  · exact ok26.1 l h
  · exact ok27.1 l h
  · exact ok28.1 l h
  · exact ok29.1 l h
  · exact ok30.1 l h
  · exact ok31.1 l h
  · exact ok32.1 l h
  · exact ok33.1 l h
  · exact ok34.1 l h
  · exact ok35.1 l h
  · exact ok36.1 l h
  · exact ok37.1 l h
  · exact ok38.1 l h
  · exact ok39.1 l h
  · exact ok40.1 l h
  · exact ok41.1 l h
  · exact ok42.1 l h
  · exact ok43.1 l h
  · exact ok44.1 l h
  · exact ok45.1 l h
  · exact ok46.1 l h
  · exact ok47.1 l h
  · exact ok48.1 l h
  · exact ok49.1 l h

theorem keysEq : keysOf enUsLines = keyChunks.flatten := by
  have happ : ∀ a b : List Str, keysOf (a ++ b) = keysOf a ++ keysOf b := by intro a b; simp [keysOf]
  have hnil : keysOf [] = [] := rfl
  simp only [enUsLines, enUsChunks, keyChunks, List.flatten_cons, List.flatten_nil, happ, hnil, ok00.2, ok01.2, ok02.2, ok03.2, ok04.2, ok05.2, ok06.2, ok07.2, ok08.2, ok09.2, ok10.2, ok11.2, ok12.2, ok13.2, ok14.2, ok15.2, ok16.2, ok17.2, ok18.2, ok19.2, ok20.2, ok21.2, ok22.2, ok23.2, ok24.2, ok25.2, ok26.2, ok27.2, ok28.2, ok29.2, ok30.2, ok31.2, ok32.2, ok33.2, ok34.2, ok35.2, ok36.2, ok37.2, ok38.2, ok39.2, ok40.2, ok41.2, ok42.2, ok43.2, ok44.2, ok45.2, ok46.2, ok47.2, ok48.2, ok49.2]

def t0 : KT := (.node (.node (.node (.node (.node (.node (.node .leaf 2011850906774695849421643292849068717375488 0 .leaf) 2011851071694278588378424616819249182146560 1 .leaf) 2011851409129416912666216353174588569419776 2 (.node .leaf 2011852406050413751353121031029883779678208 3 .leaf)) 2011852566111584439770734640412610709684224 4 (.node (.node (.node .leaf 2011852732840597285388834901667996499968000 5 .leaf) 2011852734138671500022541808800620582273024 6 .leaf) 2011852734856795565051833764748502948118528 7 (.node .leaf 2011852738357412697582089256981648849764352 8 .leaf))) 2011852738421429052893614841757232361635840 9 (.node (.node (.node (.node .leaf 2011852738424106717198589119291839167332352 10 .leaf) 2011853402646892036381598982102022969360384 11 .leaf) 2011853403038087278495975575871520719765504 12 (.node .leaf 2011853403048103451353833587675729533861888 13 .leaf)) 2011853563608094650961255466547409175183360 14 (.node (.node (.node .leaf 2011853567826835848520802914728437442674688 15 .leaf) 2011853568800391509496083095077905504403456 16 .leaf) 2011853569189067543630513939987983537012736 17 (.node .leaf 2011853733724903725689298803302734281834496 18 .leaf)))) 2011853896239612150848650419282330265845760 19 (.node (.node (.node (.node (.node .leaf 2011854064015704392255268166173992903770112 20 .leaf) 2011854231791796633661885913065655541694464 21 .leaf) 2011935644734908584150114183766005568765952 22 (.node .leaf 2011935647068019513870170397220687818260480 23 .leaf)) 2011935648693147583362760489939461327552512 24 (.node (.node (.node .leaf 2011936312918610566850744630284251935277056 25 .leaf) 2011936312980091620961813756256842040737792 26 .leaf) 2011936313312216078221609859448978280546304 27 (.node .leaf 2011936313316790266666769339564730544553984 28 .leaf))) 2011938469993436734413197557922320705650688 29 (.node (.node (.node (.node .leaf 2011938972097292962516706161680357731074048 30 .leaf) 2012020717344863606273289058008379825324032 31 .leaf) 2012020717661017399086264470274042463518720 32 (.node .leaf 2012020718308908173926739661705797915639808 33 .leaf)) 2012020718966831214845583574885335870472192 34 (.node (.node .leaf 2012020719545380016325527475598891778310144 35 .leaf) 2012021381624710533627119239209763859333120 36 (.node .leaf 2012021844975724103749415959583971136765952 37 .leaf))))) 2012021879118759321695211599637991064076288 38 (.node (.node (.node (.node (.node (.node .leaf 2012022011129223576863900072559853671809024 39 .leaf) 2012022048845631885454409455291264141361152 40 .leaf) 2012023040826594335051904155513906960269312 41 (.node .leaf 2012023043812686449053977044090729860694016 4447 .leaf)) 2012023045045335532611451603694935227760640 42 (.node (.node (.node .leaf 2012023045115181623203058916320470548611072 43 .leaf) 2012106452549962859807134380384119152443392 44 .leaf) 2012106453128515375107196137238499757654016 45 (.node .leaf 2012106454163552090193545443560557924843520 46 .leaf))) 2012106454168622692594458361166544737665024 47 (.node (.node (.node (.node .leaf 2012106454168769004050703041277042727321600 4448 .leaf) 2012106454489338294452200399745210648625152 48 .leaf) 2012107113921944610562906092407507629637632 49 (.node .leaf 2012108116286102874544170900913105210966016 50 .leaf)) 2012108611251688589058394779914342078873600 4449 (.node (.node (.node .leaf 2012109107690284301037821223454748071428096 51 .leaf) 2012109110997584717033271731959646734254080 52 .leaf) 2012190860153455858817728694171693916094464 53 (.node .leaf 2012190860470873588410814479698028560121856 54 .leaf)))) 2012190989238187734294242969032391810613248 55 (.node (.node (.node (.node (.node .leaf 2012191524693801270698342161239825761435648 56 .leaf) 2012191820005685099866663533911804485828608 57 .leaf) 2012192683225037831281756777106819218669568 58 (.node .leaf 2012192683618643342652622006271545563938816 59 .leaf)) 2012193014627568074247883325090686551719936 60 (.node (.node (.node .leaf 2012193016505592438486005183408052350484480 61 .leaf) 2012193020399815082387125904805924597399552 62 .leaf) 2012193519576045866603970844990349460373504 63 (.node .leaf 2012193684755846077698617673504875635277824 64 .leaf))) 2012193813847678777240472889622394906345472 65 (.node (.node (.node (.node .leaf 2012194013827934389669387287906743230660608 4450 .leaf) 2012194146154677723469441115574159976431616 66 .leaf) 2012194181266838999055531726281932210700288 4451 (.node .leaf 2012194312308177196583925228550042511474688 4452 .leaf)) 2012194345156949817739765562659077990907904 4453 (.node (.node .leaf 2012194843545049535428476972576448194805760 67 .leaf) 2012276595610050058972634731674839724064768 68 (.node .leaf 2012278256889738501750542332575296023166976 69 .leaf))))))
def t1 : KT := (.node (.node (.node (.node (.node (.node (.node .leaf 2012361001658271944907512961656198558384128 4454 .leaf) 2012361628882146622869426995263755299848192 71 .leaf) 2012361664652711260109604246697726349148160 72 (.node .leaf 2012361664968990084866547482371153798889472 73 .leaf)) 2012361664972918068611199993983408720052224 4455 (.node (.node (.node .leaf 2012361664977229813768030973480882369724416 4456 .leaf) 2012362324974444220194755945133419435917312 74 .leaf) 2012362325298962773853182671916575456493568 75 (.node .leaf 2012363327412256471074914978302366995972096 76 .leaf))) 2012446070620432381169832768162944933429248 77 (.node (.node (.node (.node .leaf 2012446070624739174566506606139318986604544 78 .leaf) 2012446699473876857485292838915613241901056 79 .leaf) 2012446734916753814566472790062686512611328 4457 (.node .leaf 2012446735881435921340155364601677651902464 4458 .leaf)) 2012446736539471614802574247386231427039232 4459 (.node (.node (.node .leaf 2012446736539476566562731388907331023536128 80 .leaf) 2012446736793510528204366418978555608170496 81 .leaf) 2012446737118029081862793145761711628746752 82 (.node .leaf 2012447395890693008469048515568433398546432 83 .leaf)))) 2012447396936504753657337771803213542981632 84 (.node (.node (.node (.node (.node .leaf 2012448396770078637113353030610447161622528 85 .leaf) 2012448396776267099369740646604667883618304 86 .leaf) 2012448399302060920324487729086849020329984 87 (.node .leaf 2012531638960111414096761062172438871146496 88 .leaf)) 2012531640002120207484365630202728905965568 89 (.node (.node (.node .leaf 2012533134666125225785544805738537707110400 90 .leaf) 2012533135706368716677128421496821590786048 91 .leaf) 2012533265447102350131515699350413999341568 92 (.node .leaf 2012533297640990818827743694461436954673152 93 .leaf))) 2012533298223476269632615104449172077543424 94 (.node (.node (.node (.node .leaf 2012533300170587591583175465148108201000960 95 .leaf) 2012533302766736020850589279413356365611008 96 .leaf) 2012533303489296862980680038266477192675328 4460 (.node .leaf 2012533967056215359650099004533730485207040 97 .leaf)) 2012534130289047849838742576461208835063808 98 (.node (.node .leaf 2012619536108444013609417187113236032389120 99 .leaf) 2012702610980920015617590896366750514806784 4461 (.node .leaf 2012703609852826176295583481604372361641984 4462 .leaf))))) 2012786349430829576988873591942511450914816 100 (.node (.node (.node (.node (.node (.node .leaf 2012786352599322252259332980983521112752128 101 .leaf) 2012786354935109608344324186592535268818944 102 .leaf) 2012786354936869959080187997343441823465472 103 (.node .leaf 2012786981840797795948756213523045010112512 104 .leaf)) 2012787015330225178078234656963698641338368 105 (.node (.node (.node .leaf 2012787015978119944791766215900988973252608 4463 .leaf) 2012787017537838698375696159670207273500672 106 .leaf) 2012787018186875805692549613236519314653184 107 (.node .leaf 2012787020133987127643109973935455438110720 108 .leaf))) 2012787679880206715224645524091645269639168 109 (.node (.node (.node (.node .leaf 2012787679941687769335714650064235375099904 110 .leaf) 2012787682151836590833632611573737413672960 111 .leaf) 2012787682476355144492059338356893434249216 112 (.node .leaf 2012787684098947912784192972272673537130496 113 .leaf)) 2012871421305422219035707589909033036808192 114 (.node (.node .leaf 2012871422936888541529438829635290062127104 115 .leaf) 2012871423577052094644694677391125180841984 116 (.node .leaf 2012871424887298973684694728766832351641600 117 .leaf)))) 2012872052432528030564622057174902952165376 118 (.node (.node (.node (.node (.node .leaf 2012872085919553809017886862882252282396672 4464 .leaf) 2012872089490391852336566265828776106524672 119 .leaf) 2012872090138295241109043316301340442886144 4465 (.node .leaf 2012872090140837735418126482147923351044096 120 .leaf)) 2012872752485722484366943024668231266729984 4466 (.node (.node (.node .leaf 2012872754366159593741632089141375458607104 121 .leaf) 2012872754430317352270574718633007653060608 4467 .leaf) 2012872754439813312258994359357048652562432 122 (.node .leaf 2012873749728580019447928717856474077855744 123 .leaf))) 2012873751032992487082776771996581676187648 124 (.node (.node (.node (.node .leaf 2012874748594152878884937297607712005160960 125 .leaf) 2012874748594274197008787264874652119334912 126 .leaf) 2012957159110467901877494273233411041656832 4468 (.node .leaf 2012957819765592969822670304262737071439872 127 .leaf)) 2012958817409279396403751420519742617681920 4469 (.node (.node .leaf 2012958820320445189528076667958296024449024 4470 .leaf) 2013042027462489026681869631502736301228032 128 (.node .leaf 2013042059914344392524542309818338358853632 129 .leaf))))))
def t2 : KT := (.node t0 2012360964268148730411490543360225159675904 70 t1)
def t3 : KT := (.node (.node (.node (.node (.node (.node (.node .leaf 2013044385163442501309637693628548376428544 131 .leaf) 2013044385738818462468893164697537828880384 132 .leaf) 2013044386063337016127319891480693849456640 133 (.node .leaf 2013044391255633874662147520011190178676736 134 .leaf)) 2013044519764981123399131326140974326874112 135 (.node (.node (.node .leaf 2013044557477586480188956020667894686810112 136 .leaf) 2013044719668410176989995024565083001847808 137 .leaf) 2013044889716132294005599858938837783805952 138 (.node .leaf 2013127296721188851890204213488358046826496 139 .leaf))) 2013127301915887314101245479752158677041152 140 (.node (.node (.node (.node .leaf 2013127301918566216346259042667040381861888 141 .leaf) 2013127961598090546371255445132764996698112 142 .leaf) 2013127964912996865968075330046643878756352 143 (.node .leaf 2013127966465868851247656346880105305341952 144 .leaf)) 2013128960867552485085472907992316294201344 4471 (.node (.node (.node .leaf 2013128963135991214819010961114878581932032 4472 .leaf) 2013129457041201793976963694338261922086912 4473 .leaf) 2013129457048672762114050964297278136778752 145 (.node .leaf 2013296772904518123370260775063108559306752 146 .leaf)))) 2013296776547745948426192074964633571557376 147 (.node (.node (.node (.node (.node .leaf 2013296778488022869841607715222625651261440 148 .leaf) 2013296779134523439977747514996572150562816 4474 .leaf) 2013297438167553123145050680532950740631552 149 (.node .leaf 2013297438230301827856348035907037549297664 4492 .leaf)) 2013297440830396809969003642488664121933824 150 (.node (.node (.node .leaf 2013297442710812874363024855497135028699136 151 .leaf) 2013297442784456969830862993264577561493504 152 .leaf) 2013298103430588122919840586002792921956352 153 (.node .leaf 2013298107723486880592739454171378326962176 154 .leaf))) 2013299103596770498191012531689648337977344 155 (.node (.node (.node (.node .leaf 2013299104319331340321103290542769165041664 156 .leaf) 2013299105607264350152984362463419621703680 157 .leaf) 2013300096299026139318369761363915280744448 158 (.node .leaf 2013382177814374981477180790141251206774784 159 .leaf)) 2013382511095563413981543311143232690192384 160 (.node (.node .leaf 2013382511099366365782227999347722799808512 161 .leaf) 2013382511421983443540312382028633765576704 4475 (.node .leaf 2013382511422105999604201634675848778874880 4476 .leaf))))) 2013382511422107237544240920056123677999104 4477 (.node (.node (.node (.node (.node (.node .leaf 2013382511422122092824712344619422467489792 4478 .leaf) 2013382511422124568704790915379972265738240 4479 .leaf) 2013382511422125806644830200760247164862464 4480 (.node .leaf 2013382511422129520464948056901071862235136 4481 .leaf)) 2013382511679950340686757065233212867870720 162 (.node (.node (.node .leaf 2013382513044701243776413839352178680004608 163 .leaf) 2013382974443407857603269458013698209611776 164 .leaf) 2013383140596907330717753570989580744654848 165 (.node .leaf 2013383176359232239056447331313823223119872 166 .leaf))) 2013384337488021052911825382677800451833856 4482 (.node (.node (.node (.node .leaf 2013384337815709971010861968344973129547776 4483 .leaf) 2013384968285401534977078813724288630128640 167 .leaf) 2013384999825949816779897373433450188505088 168 (.node .leaf 2013385799052898900549499378603701305344000 169 .leaf)) 2013466881960641780417746510834378406363136 170 (.node (.node .leaf 2013466918370878789586723243696157708255232 4484 .leaf) 2013467546574639672875682962737908546535424 171 (.node .leaf 2013467581686787606756428306398108723445760 4485 .leaf)))) 2013467582333297802818013426687899819048960 172 (.node (.node (.node (.node (.node .leaf 2013468045035138092219135301665556151664640 173 .leaf) 2013468211188637565333619414641438686707712 174 .leaf) 2013468246236641360443705907222288908943360 175 (.node .leaf 2013468246631514522414799365788511957417984 176 .leaf)) 2013468246950962473672313174965681165172736 177 (.node (.node (.node .leaf 2013468246953497774872769633768674571583488 178 .leaf) 2013469243868156360558533164616486265815040 179 .leaf) 2013469244455712413764317492210208201506816 180 (.node .leaf 2013469244522264070276299535788785119789056 181 .leaf))) 2013469244526194529901030618161589839200256 4486 (.node (.node (.node (.node .leaf 2013469244780230967422744218993364222083072 4487 .leaf) 2013469246151195091569574316712048738697216 182 .leaf) 2013469740706840956365352524415233849032704 183 (.node .leaf 2013554144026164870389298321138843299872768 184 .leaf)) 2013554144099832206247092730537540384194560 4488 (.node (.node .leaf 2013554144739218333017677359480738852896768 185 .leaf) 2013554145063878011840582619615233373634560 186 (.node .leaf 2013554145324239085023005228271467382177792 187 .leaf))))))
def t4 : KT := (.node (.node (.node (.node (.node (.node (.node .leaf 2013554147271350406973565588970403505635328 188 .leaf) 2013554148569424621607272496103027587940352 189 .leaf) 2013554150516535943557832856801963711397888 190 (.node .leaf 2013554444854864111750874049124474374062080 191 .leaf)) 2013554809938236977480941680174997522350080 192 (.node (.node (.node .leaf 2013554974793662235961718886018255975088128 193 .leaf) 2013637723518648606489733889671386665844736 194 .leaf) 2013637724814696313279130629294000881795072 195 (.node .leaf 2013638384561057026025144712801529213485056 4490 .leaf))) 2013722790221101767661424106123594362257408 4491 (.node (.node (.node (.node .leaf 2013723458078383720803285481756439653384192 196 .leaf) 2013892899533290845955012180997198256799744 197 .leaf) 4233290428740910717982381000645509046599680 198 (.node .leaf 4233298937617387641931157254996368556032000 199 .leaf)) 4233298938266424749248010708562680597184512 200 (.node (.node (.node .leaf 4233299567183381739279007214319048473968640 201 .leaf) 4233299604241879386351065537673669979930624 202 .leaf) 4233300263275679336604336164188712610037760 203 (.node .leaf 4233300269503134228349363066308207220621312 204 .leaf)))) 4233300761809701490761025808403169001078784 205 (.node (.node (.node (.node (.node .leaf 4233301263833054478109806132884515978215424 4493 .leaf) 4233301263833082950730709696630838658072576 206 .leaf) 4233301727178874889767300683005521429528576 207 (.node .leaf 4233301763265718351764421170112919928569856 208 .leaf)) 4233302260687377104220839514514019256893440 209 (.node (.node (.node .leaf 4233384005032385472375080218497488265412608 4494 .leaf) 4233384010156229198497583459347162621542400 210 .leaf) 4233384010219611728508994929421997781811200 211 (.node .leaf 4233384010226583806810250191130229649440768 212 .leaf))) 4233384673870828990093591150888781837500416 213 (.node (.node (.node (.node .leaf 4233384674770227090955519911250692761714688 214 .leaf) 4233385169085508047552662107284120885264384 215 .leaf) 4233385302389109866352809509874436556193792 216 (.node .leaf 4233385335165483785853908914973194634395648 217 .leaf)) 4233385338086150768779749456021598819581952 218 (.node (.node .leaf 4233385338410669322438176182804754840158208 219 .leaf) 4233386833854279459879716440261036112609280 220 (.node .leaf 4233387164216702385358580764316858465648640 221 .leaf))))) 4233387331279107338836705358165877198946304 222 (.node (.node (.node (.node (.node (.node .leaf 4233387331603625892495132084949033219522560 223 .leaf) 4233452926863395423947843491058628318724096 224 .leaf) 4233469576357511652543613717960582659833856 225 (.node .leaf 4233469745391113289376635031136974877491200 226 .leaf)) 4233470372980840100968675353526294498246656 227 (.node (.node (.node .leaf 4233470404459139805836067851492428494143488 228 .leaf) 4233470405169657967263990431031330640756736 229 .leaf) 4233470405829470104682783834510364659154944 230 (.node .leaf 4233470409002399557054042026456612782211072 231 .leaf))) 4233470410624992325346175660372392885092352 232 (.node (.node (.node (.node .leaf 4233470410949510879004602387155548905668608 233 .leaf) 4233470904217712439813227097552700181577728 234 .leaf) 4233471408519544825008360518577156157079552 235 (.node .leaf 4233471899910355846878977485357689985826816 236 .leaf)) 4233472072484505610149443516914374256099328 237 (.node (.node .leaf 4233472366822833778342484709236884918763520 238 .leaf) 4233472398950170590526730660769330955812864 239 (.node .leaf 4233472402195356127110997928600891161575424 240 .leaf)))) 4233556938954065593614898213961095255687168 241 (.node (.node (.node (.node (.node .leaf 4233556973092530083061230110968060928065536 242 .leaf) 4233623068046855893179575178362344202829824 243 .leaf) 4233640015703802150856954701902362777223168 244 (.node .leaf 4233640049851268940268969884268394880958464 4495 .leaf)) 4233724287330853278426219205424098060533760 245 (.node (.node (.node .leaf 4233724291225075922327339926821970307448832 246 .leaf) 4233724955258489839880747312840010379558912 247 .leaf) 4233724956163592368443703105508656468197376 248 (.node .leaf 4233724958110703690394263466207592591654912 249 .leaf))) 4233725584756030804816272884481868324405248 250 (.node (.node (.node (.node .leaf 4233726083216529224159725223409515929534464 251 .leaf) 4233726415523528170388693449361280999620608 252 .leaf) 4233726581677027643503177562337163534663680 253 (.node .leaf 4233726615102438670321130421002233654018048 254 .leaf)) 4233726617440620202442099552062902716334080 255 (.node (.node .leaf 4233727611446654485904190721176528905830400 256 .leaf) 4233727613646028277300168732773308967157760 257 (.node .leaf 4233728243212022374648018692095988885094400 258 .leaf))))))
def t5 : KT := (.node t3 2013554145396636294400492837508117965045760 4489 t4)
def t6 : KT := (.node t2 2013042397477656552599863749076183270031360 130 t5)
def t7 : KT := (.node (.node (.node (.node (.node (.node (.node .leaf 4233809990733763146974202276230196126285824 260 .leaf) 4233811153808259458775591067061373871587328 261 .leaf) 4233811652268757878119043405989021476716544 262 (.node .leaf 4233878279822046597027172709317918028988416 263 .leaf)) 4233894396711495489132131667978523928166400 264 (.node (.node (.node .leaf 4233894743946347903648729325955465944760320 265 .leaf) 4233896263666734686061090851475110303367168 266 .leaf) 4233896556706988639620425136664996883726336 267 (.node .leaf 4233896590851157556767784065978697720528896 268 .leaf))) 4233896592728548095705791809595315167690752 269 (.node (.node (.node (.node .leaf 4233897586474080180820981836701368848482304 270 .leaf) 4233963350413776831643038552969775971041280 271 .leaf) 4234065238205994753248739753332932215832576 272 (.node .leaf 4234149640289504451505548423683387770798080 273 .leaf)) 4234149640938541558822401877249699811950592 274 (.node (.node (.node .leaf 4234149645481801310040376052213884100018176 275 .leaf) 4234150141021632746457987850093127519961088 276 .leaf) 4234150273100684085437665650837627894497280 277 (.node .leaf 4234150308861107517876017067059625318154240 278 .leaf)))) 4234150308871378706381967867200463351840768 279 (.node (.node (.node (.node (.node .leaf 4234150309122243541523032323767946178461696 280 .leaf) 4234150937714681977895602102741158034669568 281 .leaf) 4234150969222137646568243876941716204290048 282 (.node .leaf 4234150970491055897396701507839916112871424 283 .leaf)) 4234151469026345702153619381455869207117824 284 (.node (.node (.node .leaf 4234151470312377236085158109274274608971776 285 .leaf) 4234151602328679870353538554644688174841856 286 .leaf) 4234151968090245807205708915495947538006016 287 (.node .leaf 4234153611098527016014977342380455541866496 288 .leaf))) 4234153633490307218446421490418220961628160 289 (.node (.node (.node (.node .leaf 4234153633563830953259658795705029747539968 290 .leaf) 4234153633814825772104848217201376982204416 291 .leaf) 4234153635761937094055408577900313105661952 292 (.node .leaf 4234234679078416427595595042585955696377856 293 .leaf)) 4234234710881234686121414267335245712850944 294 (.node (.node .leaf 4234234712503827454413547901251025815732224 295 .leaf) 4234234716135012598767311021838332147531776 296 (.node .leaf 4234234716460798803025965978022984871313408 297 .leaf))))) 4234234716789262671589595211742244400791552 298 (.node (.node (.node (.node (.node (.node .leaf 4234234716792923260285762081215121111121920 299 .leaf) 4234235379463099274426980072277440343310336 4496 .leaf) 4234235380749010491225247473741862287704064 300 (.node .leaf 4234236040433749024695713897925462013771776 301 .leaf)) 4234236041407304685670994078274930075500544 302 (.node (.node (.node .leaf 4234236043431108868935362317764416742883328 303 .leaf) 4234236044003453114938407892540178240110592 304 .leaf) 4234236044073807723251074624323245268008960 305 (.node .leaf 4234237005227409051198372624248311186980864 306 .leaf))) 4234237040924449953625312570395473450369024 307 (.node (.node (.node (.node .leaf 4234237042289075824771001521106674450956288 308 .leaf) 4234237204227003226826508759405270476521472 309 .leaf) 4234303632780697770106501927577207739252736 310 (.node .leaf 4234319783159574044340939329678467269656576 311 .leaf)) 4234319784794843318635355257609214404591616 312 (.node (.node (.node .leaf 4234319784794985681739873076340827803877376 4497 .leaf) 4234319786665261779272107739517599984123904 313 .leaf) 4234319786728010483983405094891686792790016 314 (.node .leaf 4234319786731813435784089783096176902406144 315 .leaf)))) 4234319787380850543100943236662488943558656 316 (.node (.node (.node (.node (.node .leaf 4234320248130645081554913225165461243559936 317 .leaf) 4234320280979908910569135820850279756070912 318 .leaf) 4234320282277983125202842727982903838375936 319 (.node .leaf 4234320283178648876664999717746311465795584 320 .leaf)) 4234320284227629748353859547484833368244224 321 (.node (.node (.node .leaf 4234320447060518474170496743240101856804864 322 .leaf) 4234320449981185457096337284288506041991168 323 .leaf) 4234320451677358905443515350983740290498560 324 (.node .leaf 4234320452252815332705324371770598186024960 325 .leaf))) 4234320746591143500898365564093108848689152 326 (.node (.node (.node (.node .leaf 4234320780729607990344697461100074521067520 327 .leaf) 4234320781639147296008452056673959070924800 328 .leaf) 4234321111025479259311579741577319955824640 329 (.node .leaf 4234321111747406276141556385729692431286272 330 .leaf)) 4234321111999034920286859921926788017553408 331 (.node (.node .leaf 4234321114334681151207372594184463673458688 332 .leaf) 4234321114337216452407829052987457079869440 333 (.node .leaf 4234321114659199704865799320967619694034944 334 .leaf))))))
def t8 : KT := (.node (.node (.node (.node (.node (.node (.node .leaf 4234321115244220456871127189758348223315968 336 .leaf) 4234321116283693949058275298985644851724288 337 .leaf) 4234321116542294671504834096890972305620992 338 (.node .leaf 4234321116866813225163260823674128326197248 339 .leaf)) 4234321446319696844978370552156066129379328 340 (.node (.node (.node .leaf 4234321943817414633448482660646967650025472 341 .leaf) 4234322075819139285814238467900169129033728 342 .leaf) 4234322107360187695392928321240389933596672 4498 (.node .leaf 4234322113463291510191738774746267515879424 343 .leaf))) 4234322113529209341403606703624096082558976 344 (.node (.node (.node (.node .leaf 4234322771911436883139567417769833265102848 345 .leaf) 4234322772630828598769087603119212334153728 346 .leaf) 4234322773930804289303136854354081471266816 4499 (.node .leaf 4234322776130178080699114865950861532594176 347 .leaf)) 4234322776779215188015968319517173573746688 348 (.node (.node (.node .leaf 4234322776849569796328635051300240601645056 349 .leaf) 4234322778077289402649675226649797656051712 350 .leaf) 4234322778474064040521111029318265759334400 351 (.node .leaf 4234322778726326509966528680216109697204224 4500 .leaf)))) 4234322938133389488666375918426537773236224 352 (.node (.node (.node (.node (.node .leaf 4234322940724467315532876815085799125024768 4501 .leaf) 4234322940725101140832990929786547476627456 353 .leaf) 4234322940730805568534017962093282641051648 4502 (.node .leaf 4234322940733465901678442244304040859009024 4503 .leaf)) 4234322942608196107472025705709900088213504 354 (.node (.node (.node .leaf 4234322943581751768447305886059368149942272 355 .leaf) 4234322945204344536739439519975148252823552 356 .leaf) 4234323104218435829368535643721598335188992 357 (.node .leaf 4234323107788139919611229638336314561527808 358 .leaf))) 4234323109735251241561789999035250684985344 359 (.node (.node (.node (.node .leaf 4234388703372428004722367771229065681305600 360 .leaf) 4234489927848722248503839426821315868229632 361 .leaf) 4234489928497759355820692880387627909382144 362 (.node .leaf 4234490587008153549906963147309314511732736 4504 .leaf)) 4234490592533074749274442610507913036300288 363 (.node (.node .leaf 4234491086776733446958689845356777428746240 364 .leaf) 4234491088002551577379387676604089428344832 365 (.node .leaf 4234491255198179924065287039496927213256704 366 .leaf))))) 4234491255198180199700373911632379046264832 367 (.node (.node (.node (.node (.node (.node .leaf 4234491255778643818786005423495752066269184 368 .leaf) 4234491257787236194847634910167278295187456 369 .leaf) 4234491257799912700849917204182245327241216 370 (.node .leaf 4234491718542101335702517816276237408010240 371 .leaf)) 4234492249129936567230216106736331050188800 372 (.node (.node (.node .leaf 4234492252112084604267125773757325340835840 373 .leaf) 4234492254064266528618599052062248277114880 374 .leaf) 4234492254395757160578281040553636165320704 375 (.node .leaf 4234492914465861476518129202792233665822720 376 .leaf))) 4234493213923596593732874833059180223397888 377 (.node (.node (.node (.node .leaf 4234578317291700747849840081809796243652608 378 .leaf) 4234643915147618708569965302184639507464192 379 .leaf) 4234660064237928147672407517664500229603328 380 (.node .leaf 4234660064552939321829122523936430976139264 381 .leaf)) 4234660064555616986134096801471037781835776 382 (.node (.node .leaf 4234660067085071395785010753426095628877824 383 .leaf) 4234660067473750150002535731251816750383104 384 (.node .leaf 4234660067799392509013618021169487885107200 385 .leaf)))) 4234660068383145610418717660558719711182848 386 (.node (.node (.node (.node (.node .leaf 4234660069681219825052424567691343793487872 387 .leaf) 4234660069747908892908767288480434514558976 388 .leaf) 4234660069747917558489042286142358808428544 389 (.node .leaf 4234660070005738378710851294474499814064128 390 .leaf)) 4234660070330256932369278021257655834640384 391 (.node (.node (.node .leaf 4234660070654775486027704748040811855216640 392 .leaf) 4234660229737319911069125259468083910672384 393 .leaf) 4234660398155613354895662590048065625784320 394 (.node .leaf 4234660398158156083736354761132708426940416 4505 .leaf))) 4234660564641859969109703352494358660120576 395 (.node (.node (.node (.node .leaf 4234660567492681137079023453052679357464576 396 .leaf) 4234660728202255107513376401300969977020416 397 .leaf) 4234660729427439412633960117847533625016320 398 (.node .leaf 4234660732421630130373037964182746596114432 399 .leaf)) 4234660734043589073365057483397778347393024 400 (.node (.node .leaf 4234660896879013100382151137956040242364416 401 .leaf) 4234660897852568761357431318305508304093184 402 (.node .leaf 4234661361265063385590797164652305686986752 403 .leaf))))))
def t9 : KT := (.node t7 4234321114919701903212700462975192202739712 335 t8)
def t10 : KT := (.node (.node (.node (.node (.node (.node (.node .leaf 4234661392813083873470742279700758359179264 405 .leaf) 4234661394114961039905133875037872551100416 406 .leaf) 4234661396637585734359310384016311929798656 407 (.node .leaf 4234661397023728943173363340883946354245632 408 .leaf)) 4234661397286622841676163837582623970951168 409 (.node (.node (.node .leaf 4234661400856326931918857832197340197289984 410 .leaf) 4234662059953509412183539928787217987665920 411 .leaf) 4234662390637915590120374520823202954870784 412 (.node .leaf 4234662393949652783216623832233340078915584 413 .leaf))) 4234662394207619680363068515437919181209600 414 (.node (.node (.node (.node .leaf 4234662524339559697392185955483483432288256 415 .leaf) 4234662690493059170506670068459365967331328 416 .leaf) 4234662888194706883528161252807109075009536 4506 (.node .leaf 4234662889422932563122253586534006580576256 417 .leaf)) 4234663054278357821603030792377265033314304 418 (.node (.node (.node .leaf 4234663056549987697212017879859357177348096 419 .leaf) 4234736628800324706452100342727094061498368 420 .leaf) 4234745134431616093816609329246393365168128 421 (.node .leaf 4234745138399362472530967355931074397995008 422 .leaf)))) 4234746299777742281226985207559663254503424 423 (.node (.node (.node (.node (.node .leaf 4234746463364249288879304782504721798660096 424 .leaf) 4234746463659611878732482233053453645512704 425 .leaf) 4234746463984130432390908959836609666088960 426 (.node .leaf 4234746469500945844584163315150262015885312 427 .leaf)) 4234746798238240700570437546487310859632640 428 (.node (.node (.node .leaf 4234746930317292039550115347231811234168832 429 .leaf) 4234747460905127271077813637691904876347392 430 .leaf) 4234747628681219512484431384583567514271744 431 (.node .leaf 4234748127141717931827883723511215119400960 432 .leaf))) 4234748292391382526979640273219948269010944 433 (.node (.node (.node (.node .leaf 4234748296540402941526635104318657860206592 434 .leaf) 4234748462755383468752188343267130500710400 435 .leaf) 4234749125756439842393586452338549740011520 4507 (.node .leaf 4234830173220528069906655948148961290747904 436 .leaf)) 4234830205091799460844799560579073280311296 437 (.node (.node .leaf 4234830205347864882090901899681407327797248 438 .leaf) 4234830208338886473329409172512878540881920 439 (.node .leaf 4234830209566606079650449347862435595288576 440 .leaf))))) 4234830869961862774548838351584937467969536 441 (.node (.node (.node (.node (.node (.node .leaf 4234830870027780605760706280462766034649088 442 .leaf) 4234830871330291597495211990500628578172928 443 .leaf) 4234830873560722828596781622434077868032000 444 (.node .leaf 4234830874891122133536308379304867882074112 445 .leaf)) 4234830874899361862437791870414596452909056 446 (.node (.node (.node .leaf 4234830874899481942621602552301261667958784 447 .leaf) 4234830875227683367896903285402242583101440 448 .leaf) 4234830876127715294058946160464901858918400 449 (.node .leaf 4234831336295024381708044738980139036049408 450 .leaf))) 4234831369140485258921582646460467438944256 451 (.node (.node (.node (.node .leaf 4234831369141119084221696761161215790546944 452 .leaf) 4234831369143792074819452408539433182167040 4508 .leaf) 4234831372316583837793411411910457320013824 453 (.node .leaf 4234831372385670795505849914292027644706816 454 .leaf)) 4234831517376377323110158283981198517600256 455 (.node (.node .leaf 4234831533926823559689921349922155566989312 456 .leaf) 4234831534251342113348348076705311587565568 457 (.node .leaf 4234831534575860667006774803488467608141824 458 .leaf)))) 4234831535549416327982054983837935669870592 459 (.node (.node (.node (.node (.node .leaf 4234831538539924449739345695990775579410432 460 .leaf) 4234831540166833639313380578789677095452672 461 .leaf) 4234832532794931720327386388476386900705280 462 (.node .leaf 4234832534742043042277946749175323024162816 463 .leaf)) 4234832534808745727474721609147437635600384 464 (.node (.node (.node .leaf 4234832535715598703253226929524791085891584 465 .leaf) 4234832536689154364228507109874259147620352 466 .leaf) 4234832997830019112852885868738964386480128 467 (.node .leaf 4234833033922567002551033388153098049945600 468 .leaf))) 4234833198707003827419029747512541123182592 469 (.node (.node (.node (.node .leaf 4234833361680601769861000406833943667539968 470 .leaf) 4234833362913391978582953499789487534768128 471 .leaf) 4234833362986338833337883817868193328791552 4509 (.node .leaf 4234833363886947639558233680138955596496896 472 .leaf)) 4234833496290517532196338207666611991609344 473 (.node (.node .leaf 4234833527768817237063730705632745987506176 474 .leaf) 4234833529066891451697437612765370069811200 475 (.node .leaf 4234833531338521327306424700247462213844992 476 .leaf))))))
def t11 : KT := (.node (.node (.node (.node (.node (.node (.node .leaf 4234834160904515424654274659570142131781632 478 .leaf) 4234915409965757777637005904776701767843840 479 .leaf) 4234916274483184723685806055104340582989824 480 (.node .leaf 4234916274556842156023286181460838474317824 4510 .leaf)) 4234916278701925921245353503285368850481152 481 (.node (.node (.node .leaf 4234917071500752508781847034535527118274560 482 .leaf) 4234917105639850823528293046243241142255616 4511 .leaf) 4234917436259606820853487938802894245986304 483 (.node .leaf 4234918068421749347468751712390822328532992 484 .leaf))) 4234918268711811834129225378271425481146368 485 (.node (.node (.node (.node .leaf 4234918433574842996211371960523664153116672 486 .leaf) 4234918434478677874174099523790813538549760 487 .leaf) 4235000314403988539138387635452677174853632 488 (.node .leaf 4235000347829399565956340494117747294208000 489 .leaf)) 4235000350101029441565327581599839438241792 490 (.node (.node (.node .leaf 4235001014785381942335930765286436606312448 491 .leaf) 4235001016074582602768040066608583766179840 492 .leaf) 4235001016082822331669523557718312337014784 493 (.node .leaf 4235001016089794409970778819426544204644352 494 .leaf)))) 4235001643631984324054260539259737455198208 495 (.node (.node (.node (.node (.node .leaf 4235001676480614327768369020243807616106496 496 .leaf) 4235001677057395350872213397924807574552576 497 .leaf) 4235001679727701340252978632177612876677120 4512 (.node .leaf 4235002672680317974925411168647478702505984 498 .leaf)) 4235002677548096279801812070394819011149824 499 (.node (.node (.node .leaf 4235085424262463766423887419866413606633472 500 .leaf) 4235086714223714558670126382911595397251072 501 .leaf) 4235087251950957970683212662601121492107264 502 (.node .leaf 4235088375758709289814967512670420747681792 503 .leaf))) 4235171816942781605470238178095899376353280 504 (.node (.node (.node (.node .leaf 4235171817267300159128664904879055396929536 505 .leaf) 4235255561227183038096071658989101223247872 506 .leaf) 4235256190793177135443921618311781141184512 507 (.node .leaf 4235258516942169759046699199974136631787520 508 .leaf)) 4235341958847535266231832394851239384317952 509 (.node (.node .leaf 4235344784682844439598760146688554479648768 510 .leaf) 4276761501115060606689827106744917435613184 511 (.node .leaf 4276770342038175514906324382937192079556608 4513 .leaf))))) 4276770506893600662165926184234566459326464 512 (.node (.node (.node (.node (.node (.node .leaf 4276771004640904493716520951468980011270144 513 .leaf) 4276771834110327644655234609215768604180480 514 .leaf) 4276772167452490813794598535657906451251200 515 (.node .leaf 4276772167715400805517909742300157756571648 516 .leaf)) 4276772169013475020151616649432781838876672 517 (.node (.node (.node .leaf 4276772831422394693512548057432796753297408 518 .leaf) 4276772833688953966720622227308902084509696 519 .leaf) 4276772835644435245479806606201524477493248 4514 (.node .leaf 4276773003092709578820286525722331638136832 520 .leaf))) 4276773131860023724703715015056694888628224 521 (.node (.node (.node (.node .leaf 4276773165686646166493902479295471572484096 4515 .leaf) 4276774128781020563390619692911990098886656 522 .leaf) 4276838928645815078039423753506178765684736 523 (.node .leaf 4276855710149261862602319164070314805035008 524 .leaf)) 4276855747144376979662966017350101150728192 525 (.node (.node .leaf 4276856410521781711598264688093597314056192 526 .leaf) 4276856412407411979437755922819943332052992 4516 (.node .leaf 4277009069829275547271155440809894649790464 527 .leaf)))) 4277101783481981545153290481352349203824640 528 (.node (.node (.node (.node (.node .leaf 4277110292033939915443640008920052692680704 529 .leaf) 4277110294954606898369480549968456877867008 530 .leaf) 4277110755770953093335432582050006096150528 531 (.node .leaf 4277110787249252798202825080016140092047360 532 .leaf)) 4277110788547327012836531987148764174352384 533 (.node (.node (.node .leaf 4277110789845401227470238894281388256657408 534 .leaf) 4277111288305899646813691233209035861786624 535 .leaf) 4277111292200122290714811954606908108701696 536 (.node .leaf 4277112084998948878251305485857066376495104 537 .leaf))) 4277112119073397012386111798088448537001984 538 (.node (.node (.node (.node .leaf 4277112121020508334336672158787384660459520 539 .leaf) 4277112251152448351365789598832948911538176 540 .leaf) 4277112451445679964526833838217293822164992 541 (.node .leaf 4277112455274618602516200745438085854003200 542 .leaf)) 4277113248073445190052694276688244121796608 543 (.node (.node .leaf 4277113284419523199796487676401718426337280 544 .leaf) 4277113285789853498643203659419654591348736 545 (.node .leaf 4277113414226944663167178389664126656839680 546 .leaf))))))
def t12 : KT := (.node t10 4234833533347113703368054186918988442763264 477 t11)
def t13 : KT := (.node t9 4234661392811816222870514050299261655973888 404 t12)
def t14 : KT := (.node t6 4233809326119765254516265824326665986113536 259 t13)
def t15 : KT := (.node (.node (.node (.node (.node (.node (.node .leaf 4277113451222059780227825242943913002532864 548 .leaf) 4277113452844652548519958876859693105414144 549 .leaf) 4277113780672408098842478512622857399304192 4517 (.node .leaf 4277113912687443082510630728591774261968896 550 .leaf)) 4277114281016001484824965627473857616019456 551 (.node (.node (.node .leaf 4277179211012736016502887128113610533896192 552 .leaf) 4277349352196196485734618815417326418001920 553 .leaf) 4277450705830875085569927730705672794275840 554 (.node .leaf 4277451038137874031798895956657437864361984 555 .leaf))) 4277451072276972346545341968365151888343040 4518 (.node (.node (.node (.node .leaf 4277451204291373504913380069633320399405056 556 .leaf) 4277451239988414407340320015780482662793216 557 .leaf) 4277451241286488621974026922913106745098240 558 (.node .leaf 4277451370444872978027864182609202934448128 559 .leaf)) 4277452367365869816714768860464498144706560 560 (.node (.node (.node .leaf 4277452401517644637463497166187179200741376 561 .leaf) 4277452402475475984059774446284878586576896 4519 .leaf) 4277452731223424552024138660267709293395968 562 (.node .leaf 4277452732124724128786409764731865272418304 563 .leaf)))) 4277452732522766417258073796801830078906368 564 (.node (.node (.node (.node (.node .leaf 4277452899324035347089183133942527951896576 565 .leaf) 4277452901198890584826734418756151992647680 4520 .leaf) 4277452902883598232530051293345270552592384 4521 (.node .leaf 4277452902887401184330735981549760662208512 4522 .leaf)) 4277452903795039014094148233021400157257728 566 (.node (.node (.node .leaf 4277453696593865601630641764271558425051136 567 .leaf) 4277453730738668344078114808286007613456384 568 .leaf) 4277453730743230153122881434599010886221824 4523 (.node .leaf 4277453733588980718691288617551344770744320 569 .leaf))) 4277453734624017433777637923873402937933824 570 (.node (.node (.node (.node .leaf 4277453736185129147958702431816592935354368 571 .leaf) 4277519493379656954966350502721042302107648 572 .leaf) 4277604563971387189582216346372900244160512 573 (.node .leaf 4277689634563117424198082190024758186213376 574 .leaf)) 4277705787212989748741392564907361509048320 4524 (.node (.node .leaf 4277705789162636371892409384409291038916608 575 .leaf) 4277706430994417677048607032614071172071424 576 (.node .leaf 4277706451763605111187917546736056488951808 577 .leaf))))) 4277706453457186313092832027135651971334144 578 (.node (.node (.node (.node (.node (.node .leaf 4277707116440985533657265468714421789392896 4525 .leaf) 4277707118000195771937987632555366732005376 579 .leaf) 4277708077601558939905818730347719575994368 580 (.node .leaf 4277708113361982372344170146569716999651328 4526 .leaf)) 4277709110293120415832900659636985835552768 581 (.node (.node (.node .leaf 4277774705154847658813948033676616128266240 582 .leaf) 4277859775746577893429813877328474070319104 583 .leaf) 4277876590675435704810662146557680229023744 584 (.node .leaf 4277961461688255439494091018568585516679168 585 .leaf))) 4277961495762703573628897330799967677186048 586 (.node (.node (.node (.node .leaf 4277961627841754912608575131544468051722240 587 .leaf) 4277962825053448063256067589981114766196736 588 .leaf) 4277962988939120612562249303679395266822144 589 (.node .leaf 4277963154701549875506324646293544863006720 590 .leaf)) 4277963154775073610319561951580353648918528 591 (.node (.node (.node .leaf 4277963289376749643753416261303293402152960 592 .leaf) 4277963802765101531384498032256117953789952 593 .leaf) 4277963819315547767964261098197075003179008 594 (.node .leaf 4277963820289103428939541278546543064907776 595 .leaf)))) 4277963820613621982597968005329699085484032 596 (.node (.node (.node (.node (.node .leaf 4277963821911696197231674912462323167789056 597 .leaf) 4277963823604643573836475278161170298568704 4527 .leaf) 4277963953990747536211352713206823542325248 598 (.node .leaf 4277964151622546714193229324148840073265152 599 .leaf)) 4277964153894176589802216411630932217298944 600 (.node (.node (.node .leaf 4277964156165806465411203499113024361332736 601 .leaf) 4277964158181370919774088247492782457880576 4528 .leaf) 4277964322058169914878672355380586036068352 602 (.node .leaf 4278029916930038362661545564632189954424832 603 .leaf))) 4278217541875095733291609421249670404898816 604 (.node (.node (.node (.node .leaf 4278218538862010403190382027982794181836800 605 .leaf) 4278219535464193115919887011361668535943168 4529 .leaf) 4278285128705229066509143095587763780583424 606 (.node .leaf 4278303608738785699277526489190511516057600 607 .leaf)) 4278370199296959301125008939239621722636288 608 (.node (.node .leaf 4278388143874902397489293140634935507288064 609 .leaf) 4278388642335400816832745479562583112417280 610 (.node .leaf 4278389140795899236176197818490230717546496 611 .leaf))))))
def t16 : KT := (.node (.node (.node (.node (.node (.node (.node .leaf 4278472415177434971400130917373514770022400 613 .leaf) 4278473248541080766239965296518175609847808 614 .leaf) 4278473414694580239354449409494058144890880 615 (.node .leaf 4278473546773631578334127210238558519427072 616 .leaf)) 4278473584484335459223609560663233824555008 617 (.node (.node (.node .leaf 4278474244164003390293163067240846737801216 618 .leaf) 4278474411679593433352879672124936867020800 619 .leaf) 4278474411679734558517358205476275367182336 4530 (.node .leaf 4278474411679735796457397490856550266306560 4531 .leaf))) 4278474414924778969937146939956497072783360 620 (.node (.node (.node (.node .leaf 4278474414927450693580643631203339372331008 4532 .leaf) 4278474415185281168284048081964069581488128 621 .leaf) 4278474575172928121888424386059987725582336 622 (.node .leaf 4278474576534441811775349890760092327870464 4533 .leaf)) 4278474577839431159468504932108302918090752 623 (.node (.node (.node .leaf 4278474579716187873106398561024172013649920 624 .leaf) 4278474581402920790713986317743025540825088 4534 .leaf) 4278540340480419770356740626543337606742016 625 (.node .leaf 4278625411072150004972606470195195548794880 626 .leaf)))) 4278803195316586237470607354389508044881920 627 (.node (.node (.node (.node (.node .leaf 4278814659908049882370011149725402962853888 628 .leaf) 4320310001019964966746869859605587154698240 629 .leaf) 4320326318207082249113671860555776425721856 630 (.node .leaf 4320326319110917127076399423822925811154944 631 .leaf)) 4320326483966342385557176629666184263892992 632 (.node (.node (.node .leaf 4320326649215373155408819064674169061900288 4535 .leaf) 4320326649216006980708933179374917413502976 633 .leaf) 4320327114830410697538733496121488264134656 634 (.node .leaf 4320327280983910170653217609097370799177728 635 .leaf))) 4320327977149731502791783864253843721158656 636 (.node (.node (.node (.node .leaf 4320327980707392912332309679554341267046400 637 .leaf) 4320327980712599688137543988990566983532544 638 .leaf) 4320327981619467519196520733931219223314432 639 (.node .leaf 4320328310356762375182794965268268067061760 640 .leaf)) 4320328310681280928841221692051424087638016 641 (.node (.node .leaf 4320328312042103848186225954558134978609152 642 .leaf) 4320328312052245052988051789770108604252160 643 (.node .leaf 4320328312056681830088850592675347065470976 644 .leaf))))) 4320328315625752095031430472589314940207104 645 (.node (.node (.node (.node (.node (.node .leaf 4320328317171652002009756227714544499163136 646 .leaf) 4320328643060535959283198993888501240430592 647 .leaf) 4320328978609551315595863914168084758265856 648 (.node .leaf 4320329146380714079766047276805099083530240 649 .leaf)) 4320329146383235763626071596425068599574528 650 (.node (.node (.node .leaf 4320329147939149367582176792593957174378496 651 .leaf) 4320329306377093462407542653360155649900544 4536 .leaf) 4320329308575833428503406550256187359625216 652 (.node .leaf 4320329308975143367575298811727648869318656 653 .leaf))) 4320329638679655631535712076406682258767872 654 (.node (.node (.node (.node .leaf 4320480142203425435978601546909303038803968 655 .leaf) 4320497453645670344752341794367220679180288 656 .leaf) 4320497619799169817866825907343103214223360 657 (.node .leaf 4320498620685497814251442834966751265947648 658 .leaf)) 4320498620938907854113278033379426691973120 659 (.node (.node .leaf 4320498623284061464535502426148327621918720 660 .leaf) 4320657926447861668476602431103615534891008 661 (.node .leaf 4320666913664686684946373963826449373724672 662 .leaf)))) 4320666931582927919172396553982349181714432 663 (.node (.node (.node (.node (.node .leaf 4320667729504330582231165096680685102432256 664 .leaf) 4320668242892682469862246867633509654069248 665 .leaf) 4320668263012832796684703928189182929797120 666 (.node .leaf 4320668560271827947803585661560097777647616 667 .leaf)) 4320668592399164759987831613092543814696960 668 (.node (.node (.node .leaf 4320668593048201867304685066658855855849472 669 .leaf) 4320668594346276081938391973791479938154496 670 .leaf) 4320668597915980172181085968406196164493312 671 (.node .leaf 4320668892578826894032553887511862847733760 672 .leaf))) 4320669256433212502841353113811332238409728 673 (.node (.node (.node (.node .leaf 4320669422517625018243398724405644448759808 674 .leaf) 4320669428425510640607061850081029737414656 675 .leaf) 4320669428425631958730911817347969851588608 676 (.node .leaf 4320669428683477537753506533285608839708672 677 .leaf)) 4320669557192824786490490339415392987906048 678 (.node (.node .leaf 4320669588671124491357882837381526983802880 679 .leaf) 4320670055653323205833942678343040593035264 680 (.node .leaf 4320905495162076609057930765168592749068288 681 .leaf))))))
def t17 : KT := (.node t15 4278472250710685747053784556440334349893632 612 t16)
def t18 : KT := (.node (.node (.node (.node (.node (.node (.node .leaf 4320921643854343759688708948578488664719360 683 .leaf) 4320921647815240616165700966202152843214848 684 .leaf) 4320921647815260423206329532286551229202432 685 (.node .leaf 4320922276665523393620826175732728788418560 686 .leaf)) 4320922308214811532100999520182678163816448 687 (.node (.node (.node .leaf 4320922309117378759463498854048330846044160 688 .leaf) 4320922311783881797043579400096646038552576 689 .leaf) 4320922312104597398901321438675311949512704 690 (.node .leaf 4320922312426580651359291706655474563678208 691 .leaf))) 4320922313689794474486722305246939307835392 692 (.node (.node (.node (.node .leaf 4320922313733528420194596219598575568420864 693 .leaf) 4320922974130824002337688244633836298698752 4539 .leaf) 4320922976976562188505702573783421191979008 694 (.node .leaf 4320922977040635489059035286051650063564800 695 .leaf)) 4320922977040721184974684488655328285556736 696 (.node (.node (.node .leaf 4320922977043113845017684617361998110261248 697 .leaf) 4320922977301080742164129300566577212555264 698 .leaf) 4320922978923673510456262934482357315436544 699 (.node .leaf 4320922980870784832406823295181293438894080 700 .leaf)))) 4320923938200518124765667305491554138849280 701 (.node (.node (.node (.node (.node .leaf 4320924617742369485511233189420261225529344 4537 .leaf) 4320924636638603157813334762830867556466688 4538 .leaf) 4320924803042463624472894182602348974571520 702 (.node .leaf 4320990565753806843673796608820450691121152 703 .leaf)) 4321006682643255735778755567481056590299136 704 (.node (.node (.node .leaf 4321006714446073994304574792230346606772224 705 .leaf) 4321006719638370852839402420760842935992320 706 .leaf) 4321007014950254682007723793432821660385280 707 (.node .leaf 4321007384252368745297338872664373076164608 708 .leaf))) 4321007547548006885439086927458583594401792 709 (.node (.node (.node (.node .leaf 4321007711114808363546061819187797879160832 4540 .leaf) 4321008011871251520694628471288116870643712 710 .leaf) 4321008541810049644905473308181898471669760 711 (.node .leaf 4321008544406198074172887122447146636279808 712 .leaf)) 4321008676485249413152564923191647010816000 713 (.node (.node .leaf 4321008842638748886267049036167529545859072 714 .leaf) 4321008874117048591134441534133663541755904 715 (.node .leaf 4321008874190572325947678839420472327667712 716 .leaf))))) 4321008875484209763480586943647857948753920 717 (.node (.node (.node (.node (.node (.node .leaf 4321008876064159913085001894832599665213440 718 .leaf) 4321008876093315876890251171067023838937088 719 .leaf) 4321008878660308342352415709097847829823488 720 (.node .leaf 4321008879309345449669269162664159870976000 4541 .leaf)) 4321009044489289261808473095290574344290304 721 (.node (.node (.node .leaf 4321009207722121751997116667218052694147072 722 .leaf) 4321009208695677412972396847567520755875840 723 .leaf) 4321009209082944671342120929724763585118208 724 (.node .leaf 4321009711111879530328039033865630713380864 725 .leaf))) 4321009711116950132728951951471617526202368 726 (.node (.node (.node (.node .leaf 4321009839559745724953953714022824756117504 727 .leaf) 4321009873711520545702682019745505812152320 728 .leaf) 4321010836480742563640858391878119966375936 729 (.node .leaf 4321160706937267312905528296124166575226880 730 .leaf)) 4321178153054711989926360158591832754749440 731 (.node (.node .leaf 4321245777528997547521394139776024517279744 732 .leaf) 4321261931413561556686999951716416762150912 733 (.node .leaf 4321261931475186466241230980471552473038848 734 .leaf)))) 4321261931477577911998525536492000274022400 735 (.node (.node (.node (.node (.node .leaf 4321262590583000121164691124191606635233280 4542 .leaf) 4321262594404966680852802769704166799441920 736 .leaf) 4321263255773779036726471953776136733851648 737 (.node .leaf 4321263259018964573310739221607696939614208 738 .leaf)) 4321265882102433794373971809857811257491456 739 (.node (.node (.node .leaf 4321415918712458016753125827079740401385472 740 .leaf) 4321500989304188251368991670731598343438336 741 .leaf) 4321517139619048170291903488057274361970688 742 (.node .leaf 4321517770807635035931887081295734382788608 743 .leaf))) 4321518103114633982160855307247499452874752 744 (.node (.node (.node (.node .leaf 4321518140109749099221502160527285798567936 745 .leaf) 4321518435421632928389823533199264522960896 746 .leaf) 4321518471181422535528060834720513595015168 747 (.node .leaf 4321518967956579481868082184358294288596992 748 .leaf)) 4321518969903690803818642545057230412054528 749 (.node (.node .leaf 4321518969975946888031651620942542494760960 750 .leaf) 4321519132884260824561868466086864824041472 751 (.node .leaf 4321519297667429998829636596044811194073088 752 .leaf))))))
def t19 : KT := (.node (.node (.node (.node (.node (.node (.node .leaf 4321519299614541320780196956743747317530624 754 .leaf) 4321519303833282518339744404924775585021952 755 .leaf) 4321519629974428945058604821996576264159232 756 (.node .leaf 4321519632316549602384580033091974339756032 4543 .leaf)) 4321519632633326079037315991635911237435392 757 (.node (.node (.node .leaf 4321519633544133035301298816611292490498048 758 .leaf) 4321519962605946444945999774731497354821632 759 .leaf) 4321519966894408425518099839994844298608640 760 (.node .leaf 4321520129733001579035764068056847951593472 761 .leaf))) 4321520466656913995000068739188470503702528 4544 (.node (.node (.node (.node .leaf 4321520595417126078878117001885737478520832 762 .leaf) 4321520628193499998379216406984495556722688 763 .leaf) 4321520793048925256859993612827754009460736 764 (.node .leaf 4321521292807497890837152858888025696894976 765 .leaf)) 4321521294105572105470859766020649779200000 766 (.node (.node (.node .leaf 4321671130487648720600723358035314227544064 767 .leaf) 4321772355361985252853859045697529220956160 768 .leaf) 4321772355642136035504297743428300629344256 769 (.node .leaf 4321772355679654284274919763419668387201024 770 .leaf)))) 4321773014134649179460114415504250990755840 771 (.node (.node (.node (.node (.node .leaf 4321773015034681105622157290566910266572800 772 .leaf) 4321773020288459018268054045069996701253632 773 .leaf) 4321773020876015071473838372663718636945408 774 (.node .leaf 4321773647196823632237421064154838349119488 775 .leaf)) 4321773680297716105396947196036752447897600 776 (.node (.node (.node .leaf 4321773682893864534664361010302000612507648 777 .leaf) 4321773684516457302956494644217780715388928 778 .leaf) 4321773684907527513126903414579513654247424 779 (.node .leaf 4321773684907652545070871237987278465794048 4545 .leaf))) 4321774676315635685425166963353136536748032 4546 (.node (.node (.node (.node .leaf 4321774676957080506481083179693492249034752 4547 .leaf) 4321774680532351613080443529404429837008896 780 .leaf) 4321774680534253088980785873506674891816960 781 (.node .leaf 4321774681501470496954924906848659437518848 782 .leaf)) 4321775673490672675453903098181030827261952 783 (.node (.node .leaf 4321841271671109189832455045339030111649792 784 .leaf) 4321926342262839424448320888990888053702656 785 (.node .leaf 4321942490955106575079099072400783969353728 786 .leaf))))) 4321942494914613224891973607975736431345664 787 (.node (.node (.node (.node (.node (.node .leaf 4321942494922852953793457099085465002180608 788 .leaf) 4321943123766286209011216299555024093052928 789 .leaf) 4321943160761401326071863152834810438746112 790 (.node .leaf 4321943820581778473766750122978557407789056 791 .leaf)) 4321943823819358106749648014401137394319360 792 (.node (.node (.node .leaf 4321945319852551044608595050657727060639744 4548 .leaf) 4321945819217392895903608960448930999435264 793 .leaf) 4321946114529276725071930333120909723828224 794 (.node .leaf 4322028028204516970512598030230999500062720 795 .leaf))) 4322028360511515916741566256182764570148864 796 (.node (.node (.node (.node .leaf 4322028858972014336085018595110412175278080 797 .leaf) 4322028896692859421776326780747061106049024 798 .leaf) 4322029391506960889563277246269441940914176 799 (.node .leaf 4322029395143358999422471103194348484820992 800 .leaf)) 4322029395150822539919322660871715304767488 801 (.node (.node .leaf 4322029555064311933410347544980076311347200 802 .leaf) 4322029556362386148044054452112700393652224 803 (.node .leaf 4322029557660460362677761359245324475957248 804 .leaf)))) 4322029689739511701657439159989824850493440 805 (.node (.node (.node (.node (.node .leaf 4322030056120958782021213698172972081086464 806 .leaf) 4322030061313255640556041326703468410306560 807 .leaf) 4322030385893924178393951350532827443625984 808 (.node .leaf 4322030385901652882262225541744115966803968 4549 .leaf)) 4322030388489438782361251050097327256633344 809 (.node (.node (.node .leaf 4322030520507009067229859724869237525708800 810 .leaf) 4322030557893194394460915348510756810260480 811 .leaf) 4322030686660508540344343837845120060751872 812 (.node .leaf 4322030720798973029790675734852085733130240 813 .leaf))) 4322030720809748059892615684764807710375936 814 (.node (.node (.node (.node .leaf 4322030723655623657404990691124906406445056 815 .leaf) 4322351695221490597527650107250177763966976 816 .leaf) 4322453547316667616706411361466171745370112 817 (.node .leaf 4363866143985845090070181809356853485764608 818 .leaf)) 4363873787046820853336451006247450097745920 819 (.node (.node .leaf 4363882427028793455289624880993341919985664 820 .leaf) 4363882626932222508880488579417450594959360 821 (.node .leaf 4363883091642791347747561332896872060157952 822 .leaf))))))
def t20 : KT := (.node t18 4321519298965504213463343503177435276378112 753 t19)
def t21 : KT := (.node t17 4320913138223052372324199962059189361049600 682 t20)
def t22 : KT := (.node (.node (.node (.node (.node (.node (.node .leaf 4363884124655193457476353124172569042223104 4550 .leaf) 4363884254717287659548950123728049805459456 824 .leaf) 4363884454296198159481387095369002459856896 825 (.node .leaf 4363885117936640390964043366923064538300416 826 .leaf)) 4363885120208270266573030454405156682334208 827 (.node (.node (.node .leaf 4363885124751530017791004629369340970401792 828 .leaf) 4363885417791783971350338914559227550760960 829 .leaf) 4363885449332198555628914653198700003721216 4551 (.node .leaf 4363885451941023490898610761478915200385024 830 .leaf))) 4363885453813343427435705587489545834725376 831 (.node (.node (.node (.node .leaf 4363885750098782917579307140510992620847104 832 .leaf) 4363885782875156837080406545609750699048960 833 .leaf) 4363886248559281336922759479438640225976320 834 (.node .leaf 4363951214577575324686047653008711427817472 835 .leaf)) 4364036285169305559301913496660569369870336 836 (.node (.node (.node .leaf 4364121355761035793917779340312427311923200 837 .leaf) 4364137504453302944548557523722323227574272 4552 .leaf) 4364138833681298729464430427529383507918848 4553 (.node .leaf 4364214069413741791799914380854881865957376 838 .leaf)))) 4364222576343107393798130274506805251932160 839 (.node (.node (.node (.node (.node .leaf 4364222578363165570503620953284447169413120 4554 .leaf) 4364222743543686262701131873118964634615808 840 .leaf) 4364222745486994632851007545613410648457216 841 (.node .leaf 4364222907097234354747517483625108895432704 842 .leaf)) 4364222909692115133414703068488860356837376 843 (.node (.node (.node .leaf 4364222910658839841253206520481435051098112 4555 .leaf) 4364222910663905726425571301804382160420864 4556 .leaf) 4364222911639860280665377543888544831897600 844 (.node .leaf 4364223041702713339982056481552538758283264 845 .leaf))) 4364223222784066281384170026553598239834112 846 (.node (.node (.node (.node .leaf 4364223408154011468029147233042150352486400 4557 .leaf) 4364223905571103178714003178313865532276736 847 .leaf) 4364224405069173614344261282366564711006208 848 (.node .leaf 4364224405076779517945630658775544930238464 849 .leaf)) 4364224406952268580983296058289917322592256 850 (.node (.node .leaf 4364224537084208598012413498335481573670912 851 .leaf) 4364224552012062066300042930360658520178688 852 (.node .leaf 4364224571221405436858517165940950542843904 853 .leaf))))) 4364224571221462382100324293433595902558208 854 (.node (.node (.node (.node (.node (.node .leaf 4364224571227109864559544198247685707268096 855 .leaf) 4364224573175631200214850607079731933216768 856 .leaf) 4364224573178024138310789247151111940341760 857 (.node .leaf 4364224573178657963610903361851860291944448 4558 .leaf)) 4364224703237708071126897611311364108713984 858 (.node (.node (.node .leaf 4364224734788263860207299185162810187317248 859 .leaf) 4364224739259267527212264284241682392678400 860 .leaf) 4364224740948538221900387070524079124512768 861 (.node .leaf 4364224741206378849162824644940618516135936 862 .leaf))) 4364225035544707017355865837263129178800128 863 (.node (.node (.node (.node .leaf 4364225067023006722223258335229263174696960 864 .leaf) 4364225069619155151490672149494511339307008 865 .leaf) 4364225073513377795391792870892383586222080 866 (.node .leaf 4364225201698206490470349950239011713843200 867 .leaf)) 4364225401601635544061213648663120388816896 868 (.node (.node .leaf 4364225403224228312353347282578900491698176 869 .leaf) 4364225403615449551208548869334171123712000 870 (.node .leaf 4364225405171339634303907643277836615155712 871 .leaf)))) 4364225534005205436699318176190776783929344 872 (.node (.node (.node (.node (.node .leaf 4364225548933058904986947608215953730437120 873 .leaf) 4364225566132542248883564127723222820978688 874 .leaf) 4364225568142402275545421843796245753102336 4559 (.node .leaf 4364225570026764892784684849121095067893760 875 .leaf)) 4364225571715909317588800526615452089057280 876 (.node (.node (.node .leaf 4364225571721613745289827558922187253481472 877 .leaf) 4364225571973876214735245209820031191351296 878 .leaf) 4364225700158704909813802289166659318972416 879 (.node .leaf 4364225734295901748659905956772128288145408 4560 .leaf))) 4364225736180264365899168962096977602936832 880 (.node (.node (.node (.node .leaf 4364226032465703856042770515118424389058560 881 .leaf) 4364226066608605122589901215030628522655744 882 .leaf) 4364226530926202275386222854046071994187776 883 (.node .leaf 4364291496944496263149511027616143196028928 884 .leaf)) 4364392684425675389870335829928607037259776 885 (.node (.node .leaf 4364393386683825506705772588678235564277760 886 .leaf) 4364394013653671174786208733735667317604352 887 (.node .leaf 4364396672109662744617954541349787878293504 888 .leaf))))))
def t23 : KT := (.node (.node (.node (.node (.node (.node (.node .leaf 4364554351780662730263377755462313634168832 890 .leaf) 4364562825609135859102067517232322921365504 891 .leaf) 4364562857411954117627886741981612937838592 892 (.node .leaf 4364563189461109960714338822756288818053120 4561 .leaf)) 4364563189463521467910866743531792312041472 893 (.node (.node (.node .leaf 4364563190692508724832135148282846069653504 894 .leaf) 4364563195560287029708536050030186378297344 895 .leaf) 4364563324069634278445519856159970526494720 896 (.node .leaf 4364563525920174653986943915283015324925952 897 .leaf))) 4364563656376633224674488082111735596580864 898 (.node (.node (.node (.node .leaf 4364563689549901862230833971765626993115136 4562 .leaf) 4364563855306506617290071600186376209825792 899 .leaf) 4364564684849590914386383240430487391436800 900 (.node .leaf 4364564852301156229114347609617329993809920 4563 .leaf)) 4364564985604629009590360985918795876925440 901 (.node (.node (.node .leaf 4364565017082928714457753483884929872822272 902 .leaf) 4364565018410158892896709667251978128850944 903 .leaf) 4364565019679077143725167298150178037432320 904 (.node .leaf 4364565019756403830339089291641476932960256 905 .leaf)))) 4364565151758128482704845098894678411968512 906 (.node (.node (.node (.node (.node .leaf 4364565185183539509522797957559748531322880 907 .leaf) 4364565352959631750929415704451411169247232 908 .leaf) 4364565650218626902048297437822326017097728 909 (.node .leaf 4364565682995000821549396842921084095299584 910 .leaf)) 4364565683064721604561949460003402771595264 4564 (.node (.node (.node .leaf 4364565683067256905762405918806396178006016 4565 .leaf) 4364565687929330782937779788247001322225664 911 .leaf) 4364565816372126375162781550798208552140800 912 (.node .leaf 4364565850446574509297587863029590712647680 913 .leaf))) 4364565854016278599540281857644306938986496 914 (.node (.node (.node (.node .leaf 4364566016600073982412071976005473247690752 915 .leaf) 4364566314832624794506233889725856157270016 916 .leaf) 4364631779311417201612974402223574964240384 917 (.node .leaf 4364716849903147436228840245875432906293248 918 .leaf)) 4364818037384326562949665048187896747524096 919 (.node (.node .leaf 4364818716926177923695230932116603834204160 920 .leaf) 4364818733540006690286405468132396043862016 4566 (.node .leaf 4364818734450179821250274178407028945321984 921 .leaf))))) 4364818739347114089931924356388793427689472 922 (.node (.node (.node (.node (.node (.node .leaf 4364818739390848035639798270740429688274944 923 .leaf) 4364819399388696267366637357093715106070528 4567 .leaf) 4364820363533319186552442629850252238127104 924 (.node .leaf 4364821360454316025239347307705547448385536 925 .leaf)) 4364822025068313917697283759609077588557824 926 (.node (.node (.node .leaf 4364886991086607905460571933179148790398976 927 .leaf) 4364972061678338140076437776831006732451840 928 .leaf) 4365057132270068374692303620482864674504704 929 (.node .leaf 4365064775331044137958572817373461286486016 930 .leaf))) 4365073780396389605641814323169876257013760 931 (.node (.node (.node (.node .leaf 4365073913773515159255199031047000713854976 932 .leaf) 4365074079927014632369683144022883248898048 933 .leaf) 4365074246080514105484167256998765783941120 934 (.node .leaf 4365075108326311175923980319844312455053312 935 .leaf)) 4365075110922459605191394134109560619663360 936 (.node (.node .leaf 4365075112941827011354963570693808825827328 937 .leaf) 4365075277153285764919800240576742050234368 938 (.node .leaf 4365075440706833856966185851082886311051264 939 .leaf)))) 4365075443229458551420362360061325689749504 940 (.node (.node (.node (.node (.node .leaf 4365075607760365256242712839121428121911296 941 .leaf) 4365075777808087373258317673495182903869440 942 .leaf) 4365076073769008309743492499733473669414912 943 (.node .leaf 4365076239922507782857976612709356204457984 944 .leaf)) 4365076609873658953464445145507219661389824 945 (.node (.node (.node .leaf 4365076738383006202201428951637003809587200 946 .leaf) 4365076940630445009618217351456006623723520 4568 .leaf) 4365077070690005148430397177588768879673344 947 (.node .leaf 4365142202861798609308169464134722616557568 948 .leaf))) 4365312344045259078539901151438438500663296 949 (.node (.node (.node (.node .leaf 4365328494430609779179801092377420450758656 950 .leaf) 4365328495009156104779666422330426560348160 951 .leaf) 4365329125548705863102796562002574540013568 952 (.node .leaf 4365329157099261652183198135854020618616832 953 .leaf)) 4365329161245746765529736508149736803401728 954 (.node (.node .leaf 4365329161307361517165048455192016014278656 4569 .leaf) 4365329821965522014086552238655394696658944 955 (.node .leaf 4365329823337240043717307132961492779925504 4570 .leaf))))))
def t24 : KT := (.node t22 4364461638127956732381242714919859080134656 889 t23)
def t25 : KT := (.node (.node (.node (.node (.node (.node (.node .leaf 4365329826577360178699537465321775758835712 4571 .leaf) 4365330822520363092331605033928479557550080 4572 .leaf) 4365330823429778603991431091474874194984960 957 (.node .leaf 4365330825701408479600418178956966339018752 958 .leaf)) 4365331820419358558794785121939855786377216 959 (.node (.node (.node .leaf 4365332448618695325392478821520225240875008 960 .leaf) 4365397414636989313155766995090296442716160 961 .leaf) 4365416023828930301977987648389140367540224 962 (.node .leaf 4365417186903426613779376439220318112841728 963 .leaf))) 4365417519210425560008344665172083182927872 964 (.node (.node (.node (.node .leaf 4365498633920986698402411022152050300420096 4573 .leaf) 4365499765192664751677980588233938029248512 965 .leaf) 4365567555820449782387498682394012326821888 966 (.node .leaf 4365583672709898674492457641054618225999872 967 .leaf)) 4365583707787058433407793409869892621959168 4574 (.node (.node (.node .leaf 4365584005016897620721425867006383296086016 968 .leaf) 4365584036495197325588818364972517291982848 969 .leaf) 4365584037865527624435534347990453456994304 970 (.node .leaf 4365584042690205808904175450086905856655360 971 .leaf)))) 4365584042733939754612049364438542117240832 972 (.node (.node (.node (.node (.node .leaf 4365584372371900362060480585538998588407808 973 .leaf) 4365584669630895513179362318909913436258304 974 .leaf) 4365585533174766798252882288888084189675520 975 (.node .leaf 4365585698418726965703611806290082174861312 976 .leaf)) 4365585832705391824980751109741091181559808 977 (.node (.node (.node .leaf 4365586035275457613675938175283204154458112 4575 .leaf) 4365586165012390771209719335692856251645952 978 .leaf) 4365586197788764690710818740791614329847808 979 (.node .leaf 4365652626412180017003364526045870268874752 980 .leaf))) 4365737697003910251619230369697728210927616 981 (.node (.node (.node (.node .leaf 4365907838187370720850962057001444095033344 982 .leaf) 4365926115072312763444214484348522949771264 983 .leaf) 4365926978616184048517734454326693703188480 984 (.node .leaf 4365926982185888138760428448941409929527296 985 .leaf)) 4407438569994673578612936830744608251052032 986 (.node (.node .leaf 4407438773792325276104921250566589172940800 987 .leaf) 4407438902301672524841905056696373321138176 988 (.node .leaf 4407438936440137014288236953703338993516544 989 .leaf))))) 4407439433538544863686456800722779004469248 990 (.node (.node (.node (.node (.node (.node .leaf 4407439433610800947899465876608091087175680 991 .leaf) 4407440231529668309757777960503433601482752 992 .leaf) 4407440264378298313471886441487503762391040 993 (.node .leaf 4407440267625385325956496053421309022961664 994 .leaf)) 4407440430531797786586370554463386297434112 995 (.node (.node (.node .leaf 4407440596288522621829418864770800729194496 996 .leaf) 4407440597975274108537595902193777743233024 4576 .leaf) 4407441259928964853312075136324862807638016 997 (.node .leaf 4407441260578001960628928589891174848790528 998 .leaf))) 4407441261299928977458905234043547324252160 999 (.node (.node (.node (.node .leaf 4407441262587861987290786305964197780914176 1000 .leaf) 4407441262593566414991813338270932945338368 1001 .leaf) 4407441263174150389896342404156423013400576 1002 (.node .leaf 4407441266094817372822182945204827198586880 1003 .leaf)) 4407441266158833728133708529980410710458368 1004 (.node (.node .leaf 4407441430950242631302960151048085651324928 1005 .leaf) 4407441431923798292278240331397553713053696 1006 (.node .leaf 4407441432248316845936667058180709733629952 1007 .leaf)))) 4407441560757664094673650864310493881827328 1008 (.node (.node (.node (.node (.node .leaf 4407441593603758797187302886491570636324864 1009 .leaf) 4407441594574145331662012493337296940040192 1010 .leaf) 4407441594896762409420096876018207905808384 1011 (.node .leaf 4407441598726334872709577897939748289249280 1012 .leaf)) 4407441893064663040902619090262258951913472 1013 (.node (.node (.node .leaf 4407441925910757743416271112443335706411008 1014 .leaf) 4407441927139111175037425402493641112420352 1015 .leaf) 4407441929086222496987985763192577235877888 1016 (.node .leaf 4407507357543455448009359602759977758883840 1017 .leaf))) 4407524174124061991487590782139388194193408 1018 (.node (.node (.node (.node .leaf 4407524174167795937195464696491024454778880 1019 .leaf) 4407524174743943134999194959471276061622272 1020 .leaf) 4407524841305052349407691772073742325252096 1021 (.node .leaf 4407526299042395383060548482010586753794048 1022 .leaf)) 4407608577476489940572857083388043657740288 1023 (.node (.node .leaf 4407608580784424181868421706593690672168960 1024 .leaf) 4407608908809933225826545128990340666097664 1025 (.node .leaf 4407609209638632467188120856975971740286976 1026 .leaf))))))
def t26 : KT := (.node (.node (.node (.node (.node (.node (.node .leaf 4407609739650320500912088884455813775622144 4577 .leaf) 4407609874252630359646057308879501880459264 1028 .leaf) 4407609906055448618171876533628791896932352 1029 (.node .leaf 4407609907420197280460858254238146648604672 1030 .leaf)) 4407609907420199521261533307747757709066240 1031 (.node (.node (.node .leaf 4407609907430215694119391319551966523162624 1032 .leaf) 4407609909625152708414570528243508123271168 1033 .leaf) 4407609911896782584023557615725600267304960 1034 (.node .leaf 4407609911960798939335083200501183779176448 1035 .leaf))) 4407610404260515441569340648154853806178304 1036 (.node (.node (.node (.node .leaf 4407610410754689466538559872022464327319552 1037 .leaf) 4407610906221630993443048479315647312953344 1038 .leaf) 4407610906615236504813913708480373658222592 1039 (.node .leaf 4407610906617263012658223875990383524577280 1040 .leaf)) 4407610906933416805471199288256046162771968 1041 (.node (.node (.node .leaf 4407610908168742315393608840014583436410880 1042 .leaf) 4407610908230223369504677965987173541871616 1043 .leaf) 4407610908239096923706275571797650464309248 1044 (.node .leaf 4407611369634125617676414325662444695846912 1045 .leaf)))) 4407611402479586494889952233142773098741760 1046 (.node (.node (.node (.node (.node .leaf 4407611733489145051785327666662662438125568 1047 .leaf) 4407611734717498483406481956712967844134912 1048 .leaf) 4407611868094624037019866664590092300976128 1049 (.node .leaf 4407611903142627832129953157170942523211776 1050 .leaf)) 4407611903204108886241022283143532628672512 1051 (.node (.node (.node .leaf 4407693615616364809346050248724299542167552 1052 .leaf) 4407694114076863228689502587651947147296768 1053 .leaf) 4407694317225477818864633553907616028033024 1054 (.node .leaf 4407694317549996372523060280690772048609280 1055 .leaf))) 4407694647585365443143041419160444974661632 4578 (.node (.node (.node (.node .leaf 4407694944844360594261923152531359822512128 1056 .leaf) 4407694976322660299129315650497493818408960 1057 .leaf) 4407694976647178852787742377280649838985216 1058 (.node .leaf 4407694977033178460557238230036395965022208 1059 .leaf)) 4407694980216882943030436371895366065324032 1060 (.node (.node .leaf 4407694982488512818639423459377458209357824 1061 .leaf) 4407694984435624140589983820076394332815360 1062 (.node .leaf 4407695941765357432948827830386655032770560 1063 .leaf))))) 4407695976813361228058914322967505255006208 1064 (.node (.node (.node (.node (.node (.node .leaf 4407695977462398335375767776533817296158720 1065 .leaf) 4407696474300303986427086481545684798406656 1066 .leaf) 4407696973734358066745819000822800465264640 1067 (.node .leaf 4407696973801046145700841276845226276683776 4579 .leaf)) 4407696973804712675058485732605867493163008 1068 (.node (.node (.node .leaf 4407779018515093990190884318327922554306560 1069 .leaf) 4407779218743041597440174743535187249856512 1070 .leaf) 4407779516975592409534336657255570159435776 1071 (.node .leaf 4407780547971037382356047647342247530201088 1072 .leaf))) 4407780553163334240890875275872743859421184 1073 (.node (.node (.node (.node .leaf 4407780680050088721335725448086747904737280 1074 .leaf) 4407780877681887899317602059028764435677184 1075 .leaf) 4407781178510587140679177787014395509866496 1076 (.node .leaf 4407781676971085560022630125942043114995712 1077 .leaf)) 4407781714615237784400130432788141501841408 1078 (.node (.node .leaf 4407781882391330025806748179679804139765760 1079 .leaf) 4407782507738582925595050690821455790211072 1080 (.node .leaf 4407847639910376386472822977367409527095296 1081 .leaf)))) 4407864458472954643407890825986915424010240 1082 (.node (.node (.node (.node (.node .leaf 4407864587567322644150202500907428101488640 1083 .leaf) 4407865118155157875677900791367521743667200 1084 .leaf) 4407865118221709532189882834946098661949440 1085 (.node .leaf 4407865121075824858603741332415925928853504 1086 .leaf)) 4407865121788878321232120370757821481877504 1087 (.node (.node (.node .leaf 4407865121791557467680149495827796477345792 1088 .leaf) 4407865123671973287871155146681174093463552 1089 .leaf) 4407866120008091737657249774477354173726720 1090 (.node .leaf 4407867117253521712139870487876837364989952 1091 .leaf))) 4407948862439559308303734272260723590561792 1092 (.node (.node (.node (.node .leaf 4407949529000668522712231084863189854191616 1093 .leaf) 4407950188422369556635339908236223665143808 1094 .leaf) 4407950188746888110293766635019379685720064 1095 (.node .leaf 4407950192381876206448214443811176127135744 1096 .leaf)) 4407950194263703522487020990333032035516416 1097 (.node (.node .leaf 4407950987387048663681941248366346323886080 1098 .leaf) 4407951168468401605084054793367405805436928 1099 (.node .leaf 4407951190860181807515498941405171225198592 1100 .leaf))))))
def t27 : KT := (.node t25 4407609247031276127604128309511639755915264 1027 t26)
def t28 : KT := (.node t24 4365329825210707550670819506486954902421504 956 t27)
def t29 : KT := (.node t21 4363883257796290820862045445872754595201024 823 t28)
def t30 : KT := (.node t14 4277113448378719483915906695386807712874496 547 t29)
def t31 : KT := (.node (.node (.node (.node (.node (.node (.node .leaf 4407952187456660092543976892477310414880768 1102 .leaf) 4407952815075542867941266491101054209359872 1103 .leaf) 4408017781093836855704554664671125411201024 1104 (.node .leaf 4408034599592398757328096928515047796244480 1105 .leaf)) 4408102851685567090320420508322983353253888 1106 (.node (.node (.node .leaf 4408119300882014928654347692935354322518016 1107 .leaf) 4408119467035514401768831805911236857561088 1108 .leaf) 4408119965496012821112284144838884462690304 1109 (.node .leaf 4408120000544016616222370637419734684925952 1110 .leaf))) 4408120994219827918325008047443469689421824 1111 (.node (.node (.node (.node .leaf 4408121161671401606073199067551976306769920 1112 .leaf) 4408121161995920159731625794335132327346176 1113 .leaf) 4408121165963666538445983821019813360173056 1114 (.node .leaf 4408121825636362391214282065889194405789696 1115 .leaf)) 4408122158267879891101677018624115496452096 1116 (.node (.node (.node .leaf 4408122159241435552076957198973583558180864 1117 .leaf) 4408122164758250964270211554287235907977216 1118 .leaf) 4408187922277297324936286351974841295306752 1119 (.node .leaf 4408207394688591045173600248468699952971776 1120 .leaf)))) 4408207394755142701685582292047276871254016 1121 (.node (.node (.node (.node (.node .leaf 4408290474683513138999924004241527680270336 1122 .leaf) 4408290968925270360783828894988147017908224 1123 .leaf) 4408374180350206686272976997939163078590464 1124 (.node .leaf 4408374195278060154560606429964340025098240 1125 .leaf)) 4408374212477543498457222949471609115639808 1126 (.node (.node (.node .leaf 4408374216110630118711328414161160502247424 1127 .leaf) 4408374218061056644087095023236276480376832 1128 .leaf) 4408374218967914571625757485134729527164928 1129 (.node .leaf 4408374219353914179395253337890475653201920 1130 .leaf))) 4408374876442504283598305947808827214659584 1131 (.node (.node (.node (.node .leaf 4408374876839399001653552432363960532992000 1132 .leaf) 4408374877091541390915159401375139255812096 1133 .leaf) 4408374877416059944573586128158295276388352 1134 (.node .leaf 4408374878451096659659935434480353443577856 1135 .leaf)) 4408374880661245481157853395989855482150912 1136 (.node (.node .leaf 4408374881959319695791560303122479564455936 1137 .leaf) 4408374882283838249449987029905635585032192 1138 (.node .leaf 4408375011117704051845397562818575753805824 1139 .leaf))))) 4408375509578202471188849901746223358935040 1140 (.node (.node (.node (.node (.node (.node .leaf 4408375541445037085026194711271096887279616 1141 .leaf) 4408375541734695247178345129513093569708032 1142 .leaf) 4408375541767020337484164979251259501445120 1143 (.node .leaf 4408375542426832474902958382730293519843328 1144 .leaf)) 4408375543070286472642634771256810510745600 1145 (.node (.node (.node .leaf 4408375544950724819957363121110229601746944 1146 .leaf) 4408375545340527379527543662070465837400064 1147 .leaf) 4408375545599761927274216574676541642899456 1148 (.node .leaf 4408375546897836141907923481809165725204480 1149 .leaf))) 4408375546963753973119791410686994291884032 1150 (.node (.node (.node (.node .leaf 4408375547289048715182850070902512063348736 4580 .leaf) 4408375547871391802883203662158633786933248 1151 .leaf) 4408376039517000595399694738640004959961088 1152 (.node .leaf 4408376039579115474810877979313343417024512 1153 .leaf)) 4408376044060260346617668913604189248028672 1154 (.node (.node (.node .leaf 4408376537977499014743147077567652565090304 4581 .leaf) 4408376538626536122060000531133964606242816 1155 .leaf) 4408376539924610336693707438266588688547840 1156 (.node .leaf 4408376542874433283424797255549417047457792 1157 .leaf)))) 4408377204863126782810070616953274849296384 1158 (.node (.node (.node (.node (.node .leaf 4408377368744996380315567642447065240305664 1159 .leaf) 4408377535872051514405331935772415837077504 1160 .leaf) 4408377536845607175380612116121883898806272 1161 (.node .leaf 4408459283069273733073088793123467057692672 1162 .leaf)) 4408459284367347947706795700256091139997696 1163 (.node (.node (.node .leaf 4408459286638977823315782787738183284031488 1164 .leaf) 4408459286700458877426851913710773389492224 1165 .leaf) 4408459417095436394003326954566903555686400 1166 (.node .leaf 4408459915555934813346779293494551160815616 1167 .leaf))) 4408459950603938608456865786075401383051264 1168 (.node (.node (.node (.node .leaf 4408459953200087037724279600340649547661312 1169 .leaf) 4408460612358750572100030822903117443497984 1170 .leaf) 4408460612946306625305815150496839379189760 1171 (.node .leaf 4408460613667719897019488361835128718098432 1172 .leaf)) 4408460615866973608231655691545243564376064 1173 (.node (.node .leaf 4408460615930989963543181276320827076247552 1174 .leaf) 4408460615933525264743637735123820482658304 1175 (.node .leaf 4408460617489566376523789325461023667257344 1176 .leaf))))))
def t32 : KT := (.node (.node (.node (.node (.node (.node (.node .leaf 4408460617562456286036912516047084101566464 1178 .leaf) 4408460619761196252132776412943115811291136 1179 .leaf) 4408461445089204892125864616000175032238080 1180 (.node .leaf 4408461610516340571309573281918446630600704 1181 .leaf)) 4408461612854659514774903090189629495705600 1182 (.node (.node (.node .leaf 4408461777318877151740910848460641206796288 1183 .leaf) 4408462609059930178288611593689521943740416 1184 .leaf) 4408462609121411232399680719662112049201152 1185 (.node .leaf 4408462609708967285605465047255833984892928 1186 .leaf))) 4408463238625924275636461553012201861677056 1187 (.node (.node (.node (.node .leaf 4408544356976544112585888636389952233406464 1188 .leaf) 4408544357304231792744885936676850011996160 1189 .leaf) 4408544687654753162686060614769792184745984 1190 (.node .leaf 4408544854131362413694264691775995536998400 1191 .leaf)) 4408544854144672744996661100491710920654848 4582 (.node (.node (.node .leaf 4408545017625964752830037635112543098765312 1192 .leaf) 4408545018924038967463744542245167181070336 1193 .leaf) 4408545021520187396731158356510415345680384 1194 (.node .leaf 4408545023213134773335958722209262476460032 1195 .leaf)))) 4408545023533850375193700760787928387420160 1196 (.node (.node (.node (.node (.node .leaf 4408545023540822453494956022496160255049728 1197 .leaf) 4408545023864073356553154519877819572420608 1198 .leaf) 4408545024765372933315425624341975551442944 1199 (.node .leaf 4408545682961889662117950731168445714399232 1200 .leaf)) 4408545683538036859921680994148697321242624 1201 (.node (.node (.node .leaf 4408545685809666735530668081630789465276416 1202 .leaf) 4408545686783222396505948261980257527005184 1203 .leaf) 4408545688147214442351523097990710175989760 1204 (.node .leaf 4408545688405815164798081895896037629886464 1205 .leaf))) 4408545688730333718456508622679193650462720 1206 (.node (.node (.node (.node .leaf 4408545690352926486748642256594973753344000 1207 .leaf) 4408546481529160305993002153929351918256128 1208 .leaf) 4408546647682659779107486266905234453299200 1209 (.node .leaf 4408546681108070805925439125570304572653568 1210 .leaf)) 4408546685002293449826559846968176819568640 1211 (.node (.node .leaf 4408546685975849110801840027317644881297408 1212 .leaf) 4408547350914365556918203206004331042045952 1213 (.node .leaf 4408547509993865887403020967335626151034880 1214 .leaf))))) 4408547512264245443572329820740070179602432 1215 (.node (.node (.node (.node (.node (.node .leaf 4408547676081956322661783442726663659454464 1216 .leaf) 4408547677704549090953917076642443762335744 1217 .leaf) 4408548324145507978539956828689236750237696 1218 (.node .leaf 4408548475371153983366811509639942338772992 1219 .leaf)) 4408630222892894755692995093774149579964416 1220 (.node (.node (.node .leaf 4408630389046394228807479206750032115007488 1221 .leaf) 4408630426103129049263595148593197268074496 4583 .leaf) 4408630721353393175036447432701797185093632 1222 (.node .leaf 4408631219813891594379899771629444790222848 1223 .leaf))) 4408631915978445275918237797384421008998400 1224 (.node (.node (.node (.node .leaf 4408632216734888433066804449484740000481280 1225 .leaf) 4408632249511262352567903854583498078683136 1226 .leaf) 4408632252824901021564495510095880257536000 1227 (.node .leaf 4408632382888387906181288562460622535524352 1228 .leaf)) 4408632549041887379295772675436505070567424 1229 (.node (.node .leaf 4408632585063446835381139348366823354531840 1230 .leaf) 4408632752839539076787757095258485992456192 1231 (.node .leaf 4408633047502385798639225014364152675696640 1232 .leaf)))) 4408714462717127624736440372546594846801920 1233 (.node (.node (.node (.node (.node .leaf 4408714496791575758871246684777977007308800 1234 .leaf) 4408714498476917231874677674067843918856192 1235 .leaf) 4408715162379129312304463317030975209209856 1236 (.node .leaf 4408715163101690154434554075884096036274176 1237 .leaf)) 4408715165041973253527021077657345897529344 1238 (.node (.node (.node .leaf 4408715658567997856038928568476530670305280 1239 .leaf) 4408715827706319568131749249710057943203840 4584 .leaf) 4408716324480069963130571927512684892782592 1240 (.node .leaf 4408716788866120248339217954208950337404928 1241 .leaf))) 4408717320165741291895067053609442829402112 1242 (.node (.node (.node (.node .leaf 4408717320165861372078877735496108044451840 1243 .leaf) 4408717320166375117195181168310191181004800 1244 .leaf) 4408717320168910418395637627113184587415552 1245 (.node .leaf 4408717323348178123768036966066916226498560 1246 .leaf)) 4408717323410293003179220206740254683561984 1247 (.node (.node .leaf 4408717487230047721273533991560706617507840 1248 .leaf) 4408717653770180627457628071993083630190592 1249 (.node .leaf 4408717823431269311403622938910343934509056 1250 .leaf))))))
def t33 : KT := (.node t31 4408460617555484207735657254338852233936896 1177 t32)
def t34 : KT := (.node (.node (.node (.node (.node (.node (.node .leaf 4408783416419408967247347257537846889676800 1252 .leaf) 4408802890521748588189119175628307623313408 1253 .leaf) 4408802890526185365289917978533546084532224 1254 (.node .leaf 4408884603900588093968172059850310730907648 1255 .leaf)) 4408884635703406352493991284599600747380736 1256 (.node (.node (.node .leaf 4408884639661011526406523476072308154564608 1257 .leaf) 4408884640895703211028818913130097076600832 1258 .leaf) 4408884641611348920099461537767631395749888 1259 (.node .leaf 4408884770054087567082656172826193265950720 1260 .leaf))) 4408884805102091362192742665407043488186368 1261 (.node (.node (.node (.node .leaf 4408884969957516620673519871250301940924416 1262 .leaf) 4408884970021532975985045456025885452795904 1263 .leaf) 4408885283442439454713737943779017817587712 1264 (.node .leaf 4408885300061338823705825397400796840067072 1265 .leaf)) 4408885300712277406923021195069353936027648 1266 (.node (.node (.node .leaf 4408885302658754903573467441067541707882496 1267 .leaf) 4408885303591745745341444280569115267039232 1268 .leaf) 4408885303957462943507288462900914141790208 1269 (.node .leaf 4408885304273107942964117583873593239928832 1270 .leaf)))) 4408885304274500625508313636682854754680832 1271 (.node (.node (.node (.node (.node .leaf 4408885304275643244164574042676586646339584 1272 .leaf) 4408885304285150623666285763187811920379904 1273 .leaf) 4408885305185182549828328638250471196196864 1274 (.node .leaf 4408885305907109566658305282402843671658496 1275 .leaf)) 4408885305907743391958419397103592023261184 1276 (.node (.node (.node .leaf 4408885306158738210803608818599939257925632 1277 .leaf) 4408885766975084405769560850681488476209152 1278 .leaf) 4408885933128583878884044963657371011252224 1279 (.node .leaf 4408885964606883583751437461623505007149056 1280 .leaf))) 4408885964676661312005797206198469043159040 4585 (.node (.node (.node (.node .leaf 4408885965323739998180501188169890669789184 1281 .leaf) 4408885965974678581397696985838447765749760 1282 .leaf) 4408885965977213882598153444641441172160512 1283 (.node .leaf 4408885968889641136622510494580116786511872 1284 .leaf)) 4408885969150143334969411636587689295216640 1285 (.node (.node .leaf 4408885970772736103261545270503469398097920 1286 .leaf) 4408885971097254656919971997286625418674176 1287 (.node .leaf 4408885971421773210578398724069781439250432 1288 .leaf))))) 4408885971483254264689467850042371544711168 1289 (.node (.node (.node (.node (.node (.node .leaf 4408886597742581771341981415560901151424512 1290 .leaf) 4408886798043419288104395031354226281283584 1291 .leaf) 4408886798044053113404509146054974632886272 1292 (.node .leaf 4408886798047856065205193834259464742502400 1293 .leaf)) 4408886799917640700541832201467101970432000 1294 (.node (.node (.node .leaf 4408886930049580717570949641512666221510656 1295 .leaf) 4408886961852398976096768866261956237983744 1296 .leaf) 4408886962176917529755195593045112258560000 1297 (.node .leaf 4408886967044695834631596494792452567203840 1298 .leaf))) 4408886968018251495606876675141920628932608 1299 (.node (.node (.node (.node .leaf 4408887594663578610028886093416196361682944 1300 .leaf) 4408887627513476264343222803801763225796608 1301 .leaf) 4408887793665708086857478687376149057634304 1302 (.node .leaf 4408887795865081878253456698972929118961664 1303 .leaf)) 4408887799434785968496150693587645345300480 1304 (.node (.node .leaf 4408887926970577556257854319367961431769088 1305 .leaf) 4408887964614729780635354626214059818614784 1306 (.node .leaf 4408888290830033767467566463273417635266560 1307 .leaf)))) 4408969674492318328584037903502168672960512 1308 (.node (.node (.node (.node (.node .leaf 4408969707981802655955323474435467663900672 1309 .leaf) 4408969707981888073818034165674435703472128 1310 .leaf) 4408970006799317274813006129453933743046656 1311 (.node .leaf 4408970038277616979680398627420067738943488 1312 .leaf)) 4408970038347337762692951244502386415239168 1313 (.node (.node (.node .leaf 4408970043794432391873652982733720088739840 1314 .leaf) 4408970044767988052848933163083188150468608 1315 .leaf) 4408970339106316221041974355405698813132800 1316 (.node .leaf 4408970371233653033226220306938144850182144 1317 .leaf))) 4408970371305909117439229382823456932888576 1318 (.node (.node (.node (.node .leaf 4408970374866105828180211656926947885187072 1319 .leaf) 4408970376175012018157665641464939304452096 1320 .leaf) 4408970376175097436020376332703907344023552 1321 (.node .leaf 4408970376176342803699897425260455862992896 1322 .leaf)) 4408970837566814640385426694333346418262016 1323 (.node (.node .leaf 4408970869045114345252819192299480414158848 1324 .leaf) 4408970870412909342899078716514423172759552 1325 (.node .leaf 4408971003720314113499910807309228953305088 1326 .leaf))))))
def t35 : KT := (.node (.node (.node (.node (.node (.node (.node .leaf 4408971036172169479342583485624831010930688 1328 .leaf) 4408971036236322008058430462230653426466816 1329 .leaf) 4408971037215566003514226964943282964004864 1330 (.node .leaf 4408971039092836462268424026673235196116992 1331 .leaf)) 4408971039417355015926850753456391216693248 1332 (.node (.node (.node .leaf 4408971041113596550976189516066744917032960 1333 .leaf) 4408971041688984891535837840938483360727040 1334 .leaf) 4408971370171481976876237962574694860193792 1335 (.node .leaf 4408971702408760140092653571444141253984256 1336 .leaf))) 4408972035689314747296901977745374385799168 1337 (.node (.node (.node (.node .leaf 4408972035763472307410253397732931523313664 1338 .leaf) 4408972036338351854613755431311686426951680 1339 .leaf) 4408972036399832908724824557284276532412416 1340 (.node .leaf 4408972166794810425301299598140406698606592 1341 .leaf)) 4408972198335988818584114416409491911213056 4586 (.node (.node (.node .leaf 4408972199643440429015408079124476859514880 1342 .leaf) 4408972200941634723832925668143766156869632 1343 .leaf) 4408972203853941897673472036195776556171264 1344 (.node .leaf 4408972665255308844644751937068054303735808 1345 .leaf)))) 4408972699391871858190741489972774921306112 1346 (.node (.node (.node (.node (.node .leaf 4408972862956828805639181165092389510971392 1347 .leaf) 4408972865548540457805796176452399214362624 1348 .leaf) 4408972865552343409606480864656889323978752 1349 (.node .leaf 4408972867430367773844602722974255122743296 1350 .leaf)) 4408972867500088556857155340056573799038976 1351 (.node (.node (.node .leaf 4408972868403923434819882903323723184472064 1352 .leaf) 4408972868474278043132549635106790212370432 1353 .leaf) 4408972868478203550997123575958495335284736 1354 (.node .leaf 4408973034557422907934367016299605719515136 1355 .leaf))) 4408973034629678992147376092184917802221568 1356 (.node (.node (.node (.node .leaf 4408973329869306737102688388971584443908096 1357 .leaf) 4409054776886866821725722971903316631486464 1358 .leaf) 4409055445458469888096191615279554178842624 1359 (.node .leaf 4409055445719605911743206871987875039150080 1360 .leaf)) 4409055944243486861098070680990357804548096 1361 (.node (.node .leaf 4409055947493868298467858019823922236620800 4587 .leaf) 4409056106439381160300022602493532932407296 1362 (.node .leaf 4409056106827916069269974914052272464855040 1363 .leaf))))) 4409056110009085250542716597108249158746112 1364 (.node (.node (.node (.node (.node (.node .leaf 4409056110079439858855383328891316186644480 1365 .leaf) 4409056111307159465176423504240873241051136 1366 .leaf) 4409056112022885640349619678596276003274752 1367 (.node .leaf 4409056112022894305929894676258200297144320 1368 .leaf)) 4409056905079541713688197215840499570573312 1369 (.node (.node (.node .leaf 4409057106991563143340690400936134474465280 1370 .leaf) 4409057601171839311013526165710163706642432 1371 .leaf) 4409057602469913525647233072842787788947456 1372 (.node .leaf 4409057603830736444992237335349498679918592 1373 .leaf))) 4409057603832637920892579679451743734726656 1374 (.node (.node (.node (.node .leaf 4409057605780383068143254154851428209786880 1375 .leaf) 4409057605787988971744623531260408429019136 1376 .leaf) 4409058099632337730356978504637811311771648 1377 (.node .leaf 4409058768140558266716035677939213698859008 1378 .leaf)) 4409058898921535391062006571551089991090176 1379 (.node (.node .leaf 4409123698786329905710810632145278657888256 1380 .leaf) 4409140183097456989670734890944566680092672 4588 (.node .leaf 4409141975671271948304063059492357512626176 1381 .leaf)))) 4409142307978270894533031285444122582712320 1382 (.node (.node (.node (.node (.node .leaf 4409142676306829296847366184326205936762880 1383 .leaf) 4409142806438769313876483624371770187841536 1384 .leaf) 4409143005368642706492067142446410801086464 1385 (.node .leaf 4409143006735170053538098437259856856481792 1386 .leaf)) 4409143009587383904051614590627439068577792 1387 (.node (.node (.node .leaf 4409224922613587042175428834171216803659776 1388 .leaf) 4409224923587142703150709014520684865388544 1389 .leaf) 4409224923660666437963946319807493651300352 1390 (.node .leaf 4409225582359806629756964384327406635188224 1391 .leaf))) 4409225585997963852411982766622944834617344 1392 (.node (.node (.node (.node .leaf 4409225585999865328312325110725189889425408 1393 .leaf) 4409225586643831833228265646685515117756416 1394 .leaf) 4409225586645099483828493876087011820961792 1395 (.node .leaf 4409225587876622041950218739641058984984576 1396 .leaf)) 4409225587938736921361401980314397442048000 1397 (.node (.node .leaf 4409226215495504817347508338264802779463680 1398 .leaf) 4409226247947360183190181016580404837089280 1399 (.node .leaf 4409226250543508612457594830845653001699328 1400 .leaf))))))
def t36 : KT := (.node t34 4408971035847650925684156758841674990354432 1327 t35)
def t37 : KT := (.node t33 4408717823492750365514692064882934039969792 1251 t36)
def t38 : KT := (.node (.node (.node (.node (.node (.node (.node .leaf 4409226253788694149041862098677213207461888 1402 .leaf) 4409227244543838468218658967652544026771456 1403 .leaf) 4409228209337498494721317693975393199980544 1404 (.node .leaf 4409309956859239267047501278109600441171968 1405 .leaf)) 4409309990284650293865454136774670560526336 1406 (.node (.node (.node .leaf 4409310654249611079006537135111888659546112 1407 .leaf) 4409311119933735578848890068940778186473472 1408 .leaf) 4409311321135238847073460674497510943752192 1409 (.node .leaf 4409311321849559960302067942240903199981568 1410 .leaf))) 4409311323731387276340874488762759108362240 1411 (.node (.node (.node (.node .leaf 4409397519753461598380628816399696408870912 1412 .leaf) 4409480430349698682508201191365081395363840 1413 .leaf) 4409480777584551097024798849342023411957760 1414 (.node .leaf 4409483088805690252339946998979201956052992 1415 .leaf)) 4450978429917605336716805708859386147897344 1416 (.node (.node (.node .leaf 4450994748008557497046335273076724804354048 1417 .leaf) 4450994749955668818996895633775660927811584 1418 .leaf) 4450994911890427094551832298570515195363328 1419 (.node .leaf 4450995543728051067508669345375287257333760 1420 .leaf)))) 4450995911732090916164577517474214590808064 1421 (.node (.node (.node (.node (.node .leaf 4450996409607568583502701987611133666656256 1422 .leaf) 4450996572127347611062966521196716463489024 1423 .leaf) 4450996574796385949843503526048025062408192 1424 (.node .leaf 4450997371416545271767994588109995142807552 1425 .leaf)) 4450997409126615327357362823833922096332800 1426 (.node (.node (.node .leaf 4450997735201843922864355312027894208790528 1427 .leaf) 4450997737537490153784867984285569864695808 1428 .leaf) 4450997739745103674082329486992078496858112 1429 (.node .leaf 4450997904998571221034770724905301756084224 1430 .leaf))) 4451063500509335571332671552511244089950208 1431 (.node (.node (.node (.node .leaf 4451233641692796040564403239814959974055936 1432 .leaf) 4451326355345502038446538280357414528090112 1433 .leaf) 4451334866493608838004301622190366181556224 1434 (.node .leaf 4451334866884045222874596277851350768812032 1435 .leaf)) 4451334995327474640399712155103306350329856 1436 (.node (.node .leaf 4451335032396867397757521110257315048587264 4589 .leaf) 4451335192959273818381588766045322881269760 1437 (.node .leaf 4451335199125126337891696574925287272218624 1438 .leaf))))) 4451335327634473586628680381055071420416000 1439 (.node (.node (.node (.node (.node (.node .leaf 4451336690936917505679359597093513861267456 1440 .leaf) 4451336859037528300744404070768332519768064 1441 .leaf) 4451337021621323683616194189129498828472320 1442 (.node .leaf 4451337021685340038927719773905082340343808 1443 .leaf)) 4451337653783466210231457962717426911019008 1444 (.node (.node (.node .leaf 4451337689222677626856313902870523874902016 4590 .leaf) 4451337690778581327292104815997213256712192 1445 .leaf) 4451338318397464102689394414620957051191296 1446 (.node .leaf 4451403782876256509796134927118675858161664 1447 .leaf))) 4451420601699336965078103917745754263781376 1448 (.node (.node (.node (.node .leaf 4451421261770075106318066194685100115886080 1449 .leaf) 4451421264719898053049156011967928474796032 1450 .leaf) 4451421266313334857536040369649284403953664 1451 (.node .leaf 4451421766720944598830053069275868132540416 1452 .leaf)) 4451423887449692756648712597200462598373376 1453 (.node (.node (.node .leaf 4451573924059716979027866614422391742267392 1454 .leaf) 4451658994651447213643732458074249684320256 1455 .leaf) 4451675111540896105748691416734855583498240 1456 (.node .leaf 4451675458775748520265289074711797600092160 1457 .leaf)))) 4451675475394647889257376528333576622571520 1458 (.node (.node (.node (.node (.node .leaf 4451675475395915539857604757735073325776896 1459 .leaf) 4451675475399843523602257269347328246939648 1460 .leaf) 4451675476693989754491311664867697408081920 1461 (.node .leaf 4451675476696525055691768123670690814492672 1462 .leaf)) 4451675477597824632454039228134846793515008 4591 (.node (.node (.node .leaf 4451675477922343186112465954918002814091264 1463 .leaf) 4451675477983824240223535080890592919552000 1464 .leaf) 4451675477986359541423991539693586325962752 1465 (.node .leaf 4451675481167528722696733222749563019853824 1466 .leaf))) 4451675481816565830013586676315875061006336 1467 (.node (.node (.node (.node .leaf 4451675642846221577005567548442083239919616 1468 .leaf) 4451676142285346259725212985325185719599104 1469 .leaf) 4451676973303838444142822971700945629478912 1470 (.node .leaf 4451676974344081935034406587459229513154560 1471 .leaf)) 4451676978496135302677650600231441958699008 1472 (.node (.node .leaf 4451677271536389256236984885421328539058176 1473 .leaf) 4451677303014688961104377383387462534955008 1474 (.node .leaf 4451677303988244622079657563736930596683776 1475 .leaf))))))
def t39 : KT := (.node (.node (.node (.node (.node (.node (.node .leaf 4451677304961800283054937744086398658412544 1477 .leaf) 4451677307233430158663924831568490802446336 1478 .leaf) 4451678140014590502698887800725416519401472 1479 (.node .leaf 4451678306165678579838019397471679633424384 4592 .leaf)) 4451914206426637917491329989029823510478848 1480 (.node (.node (.node .leaf 4451930356805647889250010212200772146298880 4593 .leaf) 4451931025322608282286422170242962350407680 1481 .leaf) 4451931688241123496939101797644651953389568 1482 (.node .leaf 4451932686524210905571238967408154757824512 1483 .leaf))) 4451932688146944910249026539221157433835520 4594 (.node (.node (.node (.node .leaf 4451933682479891812184346956023710477189120 4595 .leaf) 4451934311000074164343907659111610250690560 1484 .leaf) 4451999277018368152107195832681681452531712 1485 (.node .leaf 4452084347610098386723061676333539394584576 1486 .leaf)) 4452169418201828621338927519985397336637440 1487 (.node (.node (.node .leaf 4452187695086770663932179947332476191375360 1488 .leaf) 4452187727602642385086378210423661760872448 1489 .leaf) 4452187732730922888309680254178574578221056 1490 (.node .leaf 4452188359700768556390116399236006331547648 1491 .leaf)))) 4452188391252591996070746202488949113356288 1492 (.node (.node (.node (.node (.node .leaf 4452188391255761122571316775992690871369728 1493 .leaf) 4452188392550666210704453109621573195661312 1494 .leaf) 4452188393775216690524922711467388492054528 1495 (.node .leaf 4452188397406401834878685832054694823854080 1496 .leaf)) 4452188525854268029504600512211888866590720 1497 (.node (.node (.node .leaf 4452254488793558855954793363637255278690304 1498 .leaf) 4452440784510620441668984316447675448819712 1499 .leaf) 4452441442958765814616812959471241198043136 1500 (.node .leaf 4452441448862848485179791396942136377081856 1501 .leaf))) 4452442076094464002207356913408637342318592 1502 (.node (.node (.node (.node .leaf 4452442111142467797317443405989487564554240 1503 .leaf) 4452443108063464636004348083844782774812672 1504 .leaf) 4452509700568749559802390894592829104848896 1505 (.node .leaf 4452594771160479794418256738244687046901760 1506 .leaf)) 4452613214198921310125993278567648436682752 1507 (.node (.node .leaf 4452614875733916041270834408326473787113472 1508 .leaf) 4452679841752210029034122581896544988954624 1509 (.node .leaf 4452696658303660608707104485041531250540544 1510 .leaf))))) 4452696955562655759825986218412446098391040 1511 (.node (.node (.node (.node (.node (.node .leaf 4452697986627821515660249825581442145452032 1512 .leaf) 4452698151413525991128474414342381921894400 1513 .leaf) 4452698817325598098220117773378536144371712 1514 (.node .leaf 4452698983479097571334601886354418679414784 1515 .leaf)) 4452698986724283107918869154185978885177344 1516 (.node (.node (.node .leaf 4452699147036448615181672185065053049847808 1517 .leaf) 4453020124119130967497585956503976757166080 1518 .leaf) 4494534572883485460040117658610652478963712 1519 (.node .leaf 4494551520540431717717497182150671053357056 1520 .leaf))) 4494552532389282024692031292031143210123264 1521 (.node (.node (.node (.node .leaf 4494552551535876690539208172237348424122368 1522 .leaf) 4494552553482988012489768532936284547579904 1523 .leaf) 4494552683614928029518885972981848798658560 1524 (.node .leaf 4494552716464825683833222683367415662772224 1525 .leaf)) 4494552719636487485604252645912167082622976 1526 (.node (.node .leaf 4494552883915765546281299588775173928517632 1527 .leaf) 4494552883920202323382098391680412389736448 1528 (.node .leaf 4494552883920322403565909073567077604786176 1529 .leaf)))) 4494552885789986958718736758888049617666048 1530 (.node (.node (.node (.node (.node .leaf 4494553550079466297518246484008423737262080 1531 .leaf) 4494553717855558538924864230900086375186432 1532 .leaf) 4494553880439353921796654349261252683890688 1533 (.node .leaf 4494553880838663860868546610732714193584128 1534 .leaf)) 4494554843610421180007179441668321754218496 1535 (.node (.node (.node .leaf 4494619643475215694655983502262510421016576 1536 .leaf) 4494789784658676163887715189566226305122304 1537 .leaf) 4494882498311382161769850230108680859156480 1538 (.node .leaf 4494891470600353709951992330806337751482368 1539 .leaf))) 4494891676345116729394537111327254796828672 1540 (.node (.node (.node (.node .leaf 4494892833972518412015224163927098868629504 1541 .leaf) 4494892833975687538515794737430840626642944 1542 .leaf) 4494892833980124315616593540336079087861760 1543 (.node .leaf 4494892839095094487537499175375276521553920 1544 .leaf)) 4494893132135348441096833460565163101913088 1545 (.node (.node .leaf 4494893163687171880777463263818105883721728 1546 .leaf) 4494893164339435059836694418380805042601984 4596 (.node .leaf 4494893166287123261845561766287844157947904 1547 .leaf))))))
def t40 : KT := (.node t38 4451677304312763175738084290520086617260032 1476 t39)
def t41 : KT := (.node (.node (.node (.node (.node (.node (.node .leaf 4494893171402093433766467401327041591640064 1549 .leaf) 4494893298288847914211317573541045636956160 1550 .leaf) 4494893330740703280053990251856647694581760 4597 (.node .leaf 4494893333661370262979830792905051879768064 1551 .leaf)) 4494893836016091326224403853230571731812352 1552 (.node (.node (.node .leaf 4494893996977293940804060337675957937635328 1553 .leaf) 4494894162806274860260117723868684452102144 1554 .leaf) 4494894163193599063871648933518572641058816 4600 (.node .leaf 4494894165077904735869104811350776596135936 1555 .leaf))) 4494894168323090272453372079182336801898496 1556 (.node (.node (.node (.node .leaf 4494894461363344226012706364372223382257664 1557 .leaf) 4495044996433866867735312720521800131280896 1558 .leaf) 4495061777937313652298208131085936170631168 1559 (.node .leaf 4495061814932428769358854984365722516324352 1560 .leaf)) 4495062978980480742135523955546368323354624 1561 (.node (.node (.node .leaf 4495063439472308383443049260844761521061888 1562 .leaf) 4495147548840082681798950372788486516244480 1563 .leaf) 4495148548106233130908079443412682656448512 1564 (.node .leaf 4495149376853095439716702342306350422294528 1565 .leaf)))) 4495149379513260224295641741347182098776064 4598 (.node (.node (.node (.node (.node .leaf 4495222780678303100233313604716112627367936 1566 .leaf) 4495231254506776229072003366486121914564608 1567 .leaf) 4495231291501891346132650219765908260257792 1568 (.node .leaf 4495231586813775175300971592437886984650752 1569 .leaf)) 4495231620949704363546847030641859250618368 1570 (.node (.node (.node .leaf 4495231622835334631386338265368205268615168 1571 .leaf) 4495231954817815023956879764536814318125056 1572 .leaf) 4495231956469563756054262674687018594729984 1573 (.node .leaf 4495233082195270433331328609220829800038400 1574 .leaf))) 4495233281194864608959464744377789089579008 1575 (.node (.node (.node (.node .leaf 4495233429430122847847926267197771816632320 1576 .leaf) 4495233447991696761689775278613248501350400 1577 .leaf) 4495233451821903050279370415235537236393984 1578 (.node .leaf 4495233580655768852674780948148477405167616 1579 .leaf)) 4495234079116267272018233287076125010296832 1580 (.node (.node .leaf 4495234114164271067128319779656975232532480 1581 .leaf) 4495234280317770540242803892632857767575552 1582 (.node .leaf 4495234577576765691361685626003772615426048 1583 .leaf))))) 4495234743730265164476169738979655150469120 1584 (.node (.node (.node (.node (.node (.node .leaf 4495235408344263056934106190883185290641408 1585 .leaf) 4495470349392518040814641938781089841545216 1586 .leaf) 4495486466281966932919600897441695740723200 1587 (.node .leaf 4495486498800373955274255619335874716631040 1588 .leaf)) 4495486503601600603638674477504638106992640 1589 (.node (.node (.node .leaf 4495487130895964825377537349345225880895488 1590 .leaf) 4495487162437647060256341317386195037061120 4599 .leaf) 4495487827312780976361293025998046037540864 1591 (.node .leaf 4495487828935373744653426659913826140422144 1592 .leaf))) 4495487832895514219766415310189526954016768 4601 (.node (.node (.node (.node .leaf 4495488792430959556522378479104051231326208 1593 .leaf) 4495488824300465644964501139262157069746176 4602 .leaf) 4495488829426074673583025332383837577019392 1594 (.node .leaf 4495555419984248275430507782432947783598080 1595 .leaf)) 4495575524557684522283085452514734523809792 1596 (.node (.node .leaf 4495656607465427402151332584745411624828928 1597 .leaf) 4495656622393280870438962016770588571336704 1598 (.node .leaf 4495656639592764214335578536277857661878272 4603 .leaf)))) 4495657309790271802149097881794390555361280 4604 (.node (.node (.node (.node (.node .leaf 4495657309797101253800006648781848937758720 1599 .leaf) 4495657936693423187067205488552471905173504 1600 .leaf) 4495657972390464089494145434699634168561664 1601 (.node .leaf 4495657972714982643152572161482790189137920 1602 .leaf)) 4495658933614420025754110166407767115431936 1603 (.node (.node (.node .leaf 4495658969057296982835290117554840386142208 4605 .leaf) 4495658969311460928181050112554929378820096 1604 .leaf) 4495658970638691106620006295921977634848768 4606 (.node .leaf 4495658970673694132030184016871685506465792 4607 .leaf))) 4495725561167708744662239469736663667703808 1605 (.node (.node (.node (.node .leaf 4495733204228684507928508666627260279685120 1606 .leaf) 4495741844210657109881682541373152101924864 1607 .leaf) 4495742342671155529225134880300799707054080 1608 (.node .leaf 4495742674978154475454103106252564777140224 1609 .leaf)) 4495743044604787092402144912267272213495808 1610 (.node (.node .leaf 4495743838052650787255491897083742522441728 1611 .leaf) 4495743869530950492122884395049876518338560 1612 (.node .leaf 4495743870574860761410831307182411607965696 1613 .leaf))))))
def t42 : KT := (.node (.node (.node (.node (.node (.node (.node .leaf 4495743872204545688188030884693088793526272 4608 .leaf) 4495744004206150260369976010059625057484800 1615 .leaf) 4495744536818423500462156654709953718648832 1616 (.node .leaf 4495744538762365695912146441905148084092928 1617 .leaf)) 4495744683748001621115541893988332144164864 1618 (.node (.node (.node .leaf 4495745167280646572171364800890802802786304 1619 .leaf) 4495810631759438979278105313388521609756672 1620 .leaf) 4495980772942899448509837000692237493862400 1621 (.node .leaf 4495996922345684760568537763641035556126720 1622 .leaf))) 4495996923906796474749602271584225553547264 1623 (.node (.node (.node (.node .leaf 4495996925529389243041735905500005656428544 1624 .leaf) 4495996926244401126812264415436791623974912 1625 .leaf) 4495996926244469489149511983487362908815360 1626 (.node .leaf 4495996926244469489366740841699366588645376 4609 .leaf)) 4495996926244474404641894536569587264126976 1627 (.node (.node (.node .leaf 4495996926244493972315210818957409058291712 1628 .leaf) 4495996929099093333284429900114721882767360 1629 .leaf) 4495997590143387135499672357403535796600832 1630 (.node .leaf 4495997591838926758546736309398021693505536 1631 .leaf)))) 4495998251911509430445233802946967240704000 4610 (.node (.node (.node (.node (.node .leaf 4495998256704496349908169170006002060230656 1632 .leaf) 4495999215981340964217573541015198883643392 1633 .leaf) 4496000246003230276064004350752408192679936 1634 (.node .leaf 4496065843534629683125702844344095435915264 1635 .leaf)) 4496085150116942483906959354645227579113472 1636 (.node (.node (.node .leaf 4496168194090305121647916437487737022447616 1637 .leaf) 4496252101607539044462393490308417219198976 1638 .leaf) 4496252138666036691534451813663038725160960 1639 (.node .leaf 4496252766221536936920329942211947359371264 1640 .leaf))) 4496253468479687053755766700961575886389248 1641 (.node (.node (.node (.node .leaf 4496254261603032194950686958994890174758912 1642 .leaf) 4496255092370529560523107523874302849974272 1643 .leaf) 4496255258524029033637591636850185385017344 1644 (.node .leaf 4496255290072049521517536751898638057209856 4611 .leaf)) 4496406125901550621589166218951527204126720 1645 (.node (.node .leaf 4496576267085011090820897906255243088232448 1646 .leaf) 4496594543969953133414150333602321942970368 1647 (.node .leaf 4496595240062250730739479283471986079039488 1648 .leaf))))) 4538107033940317743692959172579257466486784 1649 (.node (.node (.node (.node (.node (.node .leaf 4538107198795743002173736378422515919224832 1650 .leaf) 4538107532725334716694838238290061092192256 1651 .leaf) 4538107534996964592303825325772153236226048 1652 (.node .leaf 4538107867628482092191220278507074326888448 1653 .leaf)) 4538108199034815286958031514695431769554944 4612 (.node (.node (.node .leaf 4538108691905608384595106307723366590578688 1654 .leaf) 4538108691974695342307544810104936915271680 1655 .leaf) 4538108826580808152842197922733115129724928 1656 (.node .leaf 4538109024928196094652910030820020620099584 1657 .leaf))) 4538109024938337299454735866031994245742592 1658 (.node (.node (.node (.node .leaf 4538109025215318955604603990259023896117248 1659 .leaf) 4538109026159718652774634894374067784122368 1660 .leaf) 4538109026223876133250639012500989796155392 1661 (.node .leaf 4538109026230073261087301626157134812020736 1662 .leaf)) 4538109026886082446705410341431678720802816 1663 (.node (.node .leaf 4538109027457792867408341801506691866427392 1664 .leaf) 4538109030442476205645707927330679563485184 1665 (.node .leaf 4538109356592003486430530368863547313618944 4613 .leaf)))) 4538109360089310367295736754241612957089792 1666 (.node (.node (.node (.node (.node .leaf 4538109362685458796563150568506861121699840 1667 .leaf) 4538109688896326006294563602660980477132800 1668 .leaf) 4538109688899495132795134176164722235146240 1669 (.node .leaf 4538109689800160884257291165928129862565888 1670 .leaf)) 4538109689864177239568816750703713374437376 1671 (.node (.node (.node .leaf 4538109692460325668836230564968961539047424 1672 .leaf) 4538109693758536056874258863931824525017088 1673 .leaf) 4538109695056615223268122912585548203819008 1674 (.node .leaf 4538109860821438662248176180651352706252800 1675 .leaf))) 4538110021848559108039700593974567478755328 4614 (.node (.node (.node (.node .leaf 4538110191505844840185010772687337673457664 1676 .leaf) 4538110986576301303330491391419588085284864 1677 .leaf) 4538111018054601008197883889385722081181696 1678 (.node .leaf 4538175786441095817979295452013776752082944 1679 .leaf)) 4538447147557590779774524619945558535045120 1680 (.node (.node .leaf 4538447152100850530992498794909742823112704 1681 .leaf) 4538447478960754848040765282630174219698176 1682 (.node .leaf 4538447478964557799841449970834664329314304 1683 .leaf))))))
def t43 : KT := (.node t41 4495743872127098921390298209315124682948608 1614 t42)
def t44 : KT := (.node t40 4494893168156907897182200133495481385877504 1548 t43)
def t45 : KT := (.node t37 4409226251192545719774448284411965042851840 1401 t44)
def t46 : KT := (.node (.node (.node (.node (.node (.node (.node .leaf 4538447649587793289360670953487922366513152 1685 .leaf) 4538448976868677752325983496596046523400192 1686 .leaf) 4538448977908927432917763539255704902696960 1687 (.node .leaf 4538448977918926274615071555736065129054208 1688 .leaf)) 4538448978815789074276543857294982646857728 1689 (.node (.node (.node .leaf 4538449145293807101049454697054021202477056 1690 .leaf) 4538449275101228564420145410316429432979456 1691 .leaf) 4538449306579528269287537908282563428876288 1692 (.node .leaf 4538449306653052004100775213569372214788096 1693 .leaf))) 4538449478249843154595276376572098313715712 1694 (.node (.node (.node (.node .leaf 4538449607408227510649113636268194503065600 1695 .leaf) 4538449971193526161745474360186093569048576 1696 .leaf) 4538449971264514595358255206669908948549632 1697 (.node .leaf 4538449971579525769514970212941839695085568 1698 .leaf)) 4538449972553081430490250393291307756814336 1699 (.node (.node (.node .leaf 4538449975412267359305021808367121836539904 1700 .leaf) 4538449975810943473076799955137834994630656 1701 .leaf) 4538449978981971449547715802981838062878720 1702 (.node .leaf 4538450105868725929992565975195842108194816 1703 .leaf)))) 4538450142214803939736359374909316412735488 1704 (.node (.node (.node (.node (.node .leaf 4538450272022225403107050088171724643237888 1705 .leaf) 4538450304861981852619560963345317881708544 1706 .leaf) 4538450438175724876221534201147607178280960 1707 (.node .leaf 4538450968114523000432379038041388779307008 4615 .leaf)) 4538516068808016756442758826621208520294400 1708 (.node (.node (.node .leaf 4538686209991477225674490513924924404400128 1709 .leaf) 4538787433169697254822255262384550509019136 1710 .leaf) 4538787765801214754709650215119471599681536 1711 (.node .leaf 4538788428143582771558599579540909595820032 1712 .leaf))) 4538789225161150556654640558972096131104768 1713 (.node (.node (.node (.node .leaf 4538789424163280033483233152932048827056128 1714 .leaf) 4538789588946449207751001282889995197087744 1715 .leaf) 4538789759382706233736558428822489511493632 1716 (.node .leaf 4538789889775148449112577010875626271277056 1717 .leaf)) 4538789922620095581209811485541871537618944 4617 (.node (.node .leaf 4538790257130151190451631729408241563598848 1718 .leaf) 4538790258103706851426911909757709625327616 1719 (.node .leaf 4538790258428225405085338636540865645903872 1720 .leaf))))) 4538790259077262512402192090107177687056384 1721 (.node (.node (.node (.node (.node (.node .leaf 4538790421080473920369453142582853927698432 1722 .leaf) 4538790425555280539175102929866216242675712 1723 .leaf) 4538790587238540396074024946318674273239040 4616 (.node .leaf 4538790588203233402522897166354304563412992 1724 .leaf)) 4538790886696145287799481688730921481535488 1725 (.node (.node (.node .leaf 4538941421766667929522088044880498230558720 1726 .leaf) 4539026492358398164137953888532356172611584 1727 .leaf) 4539042644944887958669852793340124335177728 1728 (.node .leaf 4539044935396839679845690428855317562392576 1729 .leaf))) 4539044972458506453418319325713680826368000 1730 (.node (.node (.node (.node .leaf 4539111562950128398753819732184214114664448 1731 .leaf) 4539128382097727407694215449594448540860416 1732 .leaf) 4539196633541858633369685575836072056717312 1733 (.node .leaf 4539212788477304990124493561617231258845184 4618 .leaf)) 4539298353635311000182691022798864559112192 1734 (.node (.node (.node .leaf 4539298356803169850153036297139125869346816 1735 .leaf) 4539298817944034598777415056003831108206592 1736 .leaf) 4539298850720408518278514461102589186408448 1737 (.node .leaf 4539299680262087753430237194734689862025216 1738 .leaf)))) 4539299681487905883850935025982001861623808 1739 (.node (.node (.node (.node (.node .leaf 4539299846343331142331712231825260314361856 1740 .leaf) 4539299847641405356965419138957884396666880 1741 .leaf) 4539300012496830615446196344801142849404928 1742 (.node .leaf 4539300020285275903248437787596887343235072 1743 .leaf)) 4539300179623885749535960638126493446176768 1744 (.node (.node (.node .leaf 4539300182869071286120227905958053651939328 1745 .leaf) 4539300677184352242717370101991481775489024 1746 .leaf) 4539300679769782587124651093836653322567680 4619 (.node .leaf 4539300679779866846684669801555981588496384 1747 .leaf))) 4539300683340697382725766190360220892397568 1748 (.node (.node (.node (.node .leaf 4539300683601199581072667332367793401102336 1749 .leaf) 4539300844562402195652323816813179606925312 1750 .leaf) 4539300844632122978664876433895498283220992 1751 (.node .leaf 4539300848132106285895017811427895833264128 1752 .leaf)) 4539301181412660893099266217729128965079040 1753 (.node (.node .leaf 4539301181476677248410791802504712476950528 1754 .leaf) 4539301343091353747408100543421649185144832 1755 (.node .leaf 4539366774725319102601417263139787940823040 1756 .leaf))))))
def t47 : KT := (.node (.node (.node (.node (.node (.node (.node .leaf 4539553730188600275897143766106397942480896 1758 .leaf) 4539555394710964675164600296885742089535488 1759 .leaf) 4539555395363653705597345622263006547148800 1760 (.node .leaf 4539621986500509806449014794095361766981632 1761 .leaf)) 4539639266464455010355362543587145411461120 1762 (.node (.node (.node .leaf 4539723210976804050230486449687611953905664 1763 .leaf) 4539723874292727728054715994458518011772928 1764 .leaf) 4539723874691403841826494141229231169863680 4620 (.node .leaf 4539723875915320496346849628374298114654208 1765 .leaf))) 4539727161665676287917458307829006449246208 1766 (.node (.node (.node (.node .leaf 4539809241494416006472610117914978760523776 1767 .leaf) 4539810272559581762306873725083974807584768 1768 .leaf) 4539810439356413915037184259319434219356160 1769 (.node .leaf 4539810442213064542651499215592254892670976 1770 .leaf)) 4539811272980561908223919780471667567886336 1771 (.node (.node (.node .leaf 4539811401489909156960903586601451716083712 1772 .leaf) 4539962268867430744912478168702793535193088 1773 .leaf) 4539978422825518488891321285929994565976064 1774 (.node .leaf 4540151052019206122467529914404111422324736 1775 .leaf)))) 4540151052992761783442810094753579484053504 1776 (.node (.node (.node (.node (.node .leaf 4540151055338044374160729172309129815916544 4621 .leaf) 4540151517703330622309882848233000949252096 1777 .leaf) 4581646858815245706686741558113185141096448 1778 (.node .leaf 4581664803393188803051025759508498925748224 1779 .leaf)) 4581664969546688276165509872484381460791296 1780 (.node (.node (.node .leaf 4581665002396710962423814406277713136451584 1781 .leaf) 4581665135700187749279993985460263995834368 1782 .leaf) 4581665167827524561464239936992710032883712 1783 (.node .leaf 4581665169774635883414800297691646156341248 1784 .leaf))) 4581665173344339973657494292306362382680064 1785 (.node (.node (.node (.node .leaf 4581665500783560615010061616510787144122368 1786 .leaf) 4581666003787318785571488130402619037319168 1787 .leaf) 4581666166770424107515170510235246855716864 1788 (.node .leaf 4581666169682973917603416812821137483366400 1789 .leaf)) 4581666170589855366002825696944813613514752 1790 (.node (.node .leaf 4581748710910422725865502812329179122499584 1791 .leaf) 4581748747967018897037218791581555573653504 1792 (.node .leaf 4581748747979061577739386970895774254104576 1793 .leaf))))) 4581749407002720323190831762198843258568704 1794 (.node (.node (.node (.node (.node (.node .leaf 4581749411221461520750379210379871526060032 1795 .leaf) 4581749413197728806506188847313231823241216 1796 .leaf) 4581749413232589198012465155854391161389056 1797 (.node .leaf 4581749873984919037666891603160356867801088 1798 .leaf)) 4581749908059367171801697915391739028307968 1799 (.node (.node (.node .leaf 4581750372445417457010343942088004472930304 1800 .leaf) 4581750870905915876353796281015652078059520 1801 .leaf) 4581750904980364010488602593247034238566400 1802 (.node .leaf 4581751405063455198124188566090461946576896 1803 .leaf))) 4581833152260677416791945423441513167192064 1804 (.node (.node (.node (.node .leaf 4581833153234233077767225603790981228920832 1805 .leaf) 4581833153883270185084079057357293270073344 1806 .leaf) 4581833153912426148889328333591717443796992 1807 (.node .leaf 4581833153944751239195148183329883375534080 1808 .leaf)) 4581833154207788738742505784140449290649600 1809 (.node (.node .leaf 4581833156154900060693066144839385414107136 1810 .leaf) 4581833487163824792288327463658526401888256 1811 (.node .leaf 4581833817523712416566735328911355348516864 1812 .leaf)))) 4581834279962651379824820994908684669681664 1813 (.node (.node (.node (.node (.node .leaf 4581834446116150852939305107884567204724736 1814 .leaf) 4581834478568006218781977786200169262350336 1815 .leaf) 4581834481874672809477314180004319573573632 1816 (.node .leaf 4581834482462228862683098507598041509265408 1817 .leaf)) 4581834482523709916794167633570631614726144 1818 (.node (.node (.node .leaf 4581834983843394264952391387574093299580928 1819 .leaf) 4581835475164484503810455737272308452032512 1820 .leaf) 4581835941497646110969662124667510020112384 1821 (.node .leaf 4581835972975945815837054622633644016009216 1822 .leaf))) 4581835980764391103639296065429388509839360 1823 (.node (.node (.node (.node .leaf 4581836306581018976699729755718033168400384 1824 .leaf) 4581836311773315835234557384248529497620480 1825 .leaf) 4581836311834796889345626510221119603081216 1826 (.node .leaf 4581836475067629379534270082148597952937984 1827 .leaf)) 4581836475330666879081627682959163868053504 1828 (.node (.node .leaf 4581836475979703986398481136525475909206016 1829 .leaf) 4581836476953259647373761316874943970934784 1830 (.node .leaf 4581902070590436410534339089068758967255040 1831 .leaf))))))
def t48 : KT := (.node t46 4539536915908779571833148950443503824928768 1757 t47)
def t49 : KT := (.node (.node (.node (.node (.node (.node (.node .leaf 4581918223239674909777535349250613938487296 1833 .leaf) 4581918685940383721982750386657012471562240 1834 .leaf) 4581918883640636032376951385279850975592448 1835 (.node .leaf 4581918889413516865816308079695837372874752 1836 .leaf)) 4581919516707881087555170951536425146777600 1837 (.node (.node (.node .leaf 4581919548255901575435116066584877818970112 1838 .leaf) 4581919548258436876635572525387871225380864 1839 .leaf) 4581919549484255007056270356635183224979456 1840 (.node .leaf 4581919552729440543640537624466743430742016 1841 .leaf))) 4581919552802330453153660815052803865051136 4622 (.node (.node (.node (.node .leaf 4581919552803598103753889044454300568256512 1842 .leaf) 4581919554352033311932671258382523533623296 1843 .leaf) 4581919554676551865591097985165679554199552 1844 (.node .leaf 4581920047944753426399722695562830830108672 1845 .leaf)) 4581920549001400275010588848755726599847936 1846 (.node (.node (.node .leaf 4581920552246585811594856116587286805610496 1847 .leaf) 4581921012089376345585527968319367962165248 1848 .leaf) 4581921510549874764928980307247015567294464 1849 (.node .leaf 4581921546571434221014346980177333851258880 1850 .leaf)))) 4581987141182166645150204932720616909307904 1851 (.node (.node (.node (.node (.node .leaf 4582003789308487876099715635407628491816960 1852 .leaf) 4582004286470912080809461067202652014641152 1853 .leaf) 4582005118211965107357161812431532751585280 1854 (.node .leaf 4582005449545408392610849858033829759942656 1855 .leaf)) 4582005450843482607244556765166453842247680 1856 (.node (.node (.node .leaf 4582005453764149590170397306214858027433984 1857 .leaf) 4582005455777812568632939710492371069173760 1858 .leaf) 4582006097608960048489023243996402850725888 1859 (.node .leaf 4582006280961942865500123876479554476310528 1860 .leaf))) 4582006286478758277693378231793206826106880 1861 (.node (.node (.node (.node .leaf 4582006414988105526430362037922990974304256 1862 .leaf) 4582079854834872643032339973263071463342080 1863 .leaf) 4582088360854842540411358375452998597869568 4623 (.node .leaf 4582089030342813389702279771999464264302592 1864 .leaf)) 4582089192276937839957102322093570180251648 1865 (.node (.node .leaf 4582089196425958254504097153192279771447296 1866 .leaf) 4582089690047834332776397866607011241656320 1867 (.node .leaf 4582089690667715476288002043938899109085184 1868 .leaf))))) 4582090156351839976130354977767788636012544 1869 (.node (.node (.node (.node (.node (.node .leaf 4582091485579835761046227881574848916357120 1870 .leaf) 4582157282365627114381936620024332793413632 1871 .leaf) 4582173431057894265012714803434228709064704 1872 (.node .leaf 4582174100925670070116548009840845283917824 1873 .leaf)) 4582174600040276199177766719940791743021056 1874 (.node (.node (.node .leaf 4582174728483071791402768482491998972936192 1875 .leaf) 4582174760285890049928587707241288989409280 1876 .leaf) 4582174763531075586512854975072849195171840 1877 (.node .leaf 4582174764180112693829708428639161236324352 1878 .leaf))) 4582174766127224015780268789338097359781888 1879 (.node (.node (.node (.node .leaf 4582175226943570210746220821419646578065408 1880 .leaf) 4582175593398541025923232664889602594570240 4624 .leaf) 4582175593398666333502287360432819239124992 4625 (.node .leaf 4582175725404068630089673160347294183194624 1881 .leaf)) 4582175762399183747150320013627080528887808 1882 (.node (.node .leaf 4582175763048220854467173467193392570040320 1883 .leaf) 4582176256640940968934224904373699866525696 1884 (.node .leaf 4582176756399513602911384150433971553959936 1885 .leaf)))) 4582176759320180585837224691482375739146240 1886 (.node (.node (.node (.node (.node .leaf 4582242352957357348997802463676190735466496 1887 .leaf) 4582327423549087583613668307328048677519360 1888 .leaf) 4582412494140817818229534150979906619572224 1889 (.node .leaf 4582430272565261441479334239399337869180928 4626 .leaf)) 4582497564732548052845399994631764561625088 1890 (.node (.node (.node .leaf 4582598752213727179566224796944228402855936 1891 .leaf) 4582598784016545438092044021693518419329024 1892 .leaf) 4582598784729598900720423060035413972353024 1893 (.node .leaf 4582598787586249528334738016308234645667840 1894 .leaf))) 4582598789270323350737940776196604854009856 1895 (.node (.node (.node (.node .leaf 4582599450253136098842114107512828662382592 1896 .leaf) 4582599453822840189084808102127544888721408 1897 .leaf) 4582599455120914403718515009260168971026432 1898 (.node .leaf 4582599582981224545138645361823641078071296 1899 .leaf)) 4582600081441722964482097700751288683200512 1900 (.node (.node .leaf 4582600112920022669349490198717422679097344 1901 .leaf) 4582600113244541223007916925500578699673600 1902 (.node .leaf 4582600117463282420567464373681606967164928 1903 .leaf))))))
def t50 : KT := (.node (.node (.node (.node (.node (.node (.node .leaf 4582600119085875188859598007597387070046208 1905 .leaf) 4582600121032986510810158368296323193503744 1906 .leaf) 4582600611442635968104125778318408741289984 1907 (.node .leaf 4582600912209220330054518265630701358415872 1908 .leaf)) 4582601115033316366571222505103214218575872 1909 (.node (.node (.node .leaf 4582601948396962161411056884247875058401280 1910 .leaf) 4582602112278831758916553909741665449410560 1911 .leaf) 4582602241437216114970391169437761638760448 1912 (.node .leaf 4582683856230868441000043499261156464263168 1913 .leaf))) 4582683856294884796311569084036739976134656 1914 (.node (.node (.node (.node .leaf 4582683859877265392556545372666423234527232 1915 .leaf) 4582684523190140299699101897955704582438912 1916 .leaf) 4582684525063607531017527399345714871926784 1917 (.node .leaf 4582685152033453199097963544403146625253376 1918 .leaf)) 4582685184546789619051705348691338788339712 1919 (.node (.node (.node .leaf 4582685187145473349519575621759580359360512 1920 .leaf) 4582685187797045758036885534128885806923776 1921 .leaf) 4582685189677605423475463851249245012099072 1922 (.node .leaf 4582686016875398698805190421513941460975616 1923 .leaf)))) 4582686184651490940211808168405604098899968 1924 (.node (.node (.node (.node (.node .leaf 4582686347947826040595673892294582824075264 4627 .leaf) 4582687145875446876471772900113737045770240 1925 .leaf) 4582687180984931725692928518667177373466624 1926 (.node .leaf 4582760419568714519959266722477934999764992 1927 .leaf)) 4582768931365858426833883517877198694383616 1928 (.node (.node (.node .leaf 4582768931690376980492310244660354714959872 1929 .leaf) 4582769258549013646940348502979289408339968 1930 .leaf) 4582769258552816598741033191183779517956096 1931 (.node .leaf 4582769391857686068141408823175591892090880 1932 .leaf))) 4582769426972377942206517591778867925745664 1933 (.node (.node (.node (.node .leaf 4582769558011185541255892936151474427133952 1934 .leaf) 4582769590787559460756992341250232505335808 1935 .leaf) 4582769595067922837592087448755189378449408 1936 (.node .leaf 4582769595403709121488089706800477227712512 1937 .leaf)) 4582769761221423548646610847111346812616704 4628 (.node (.node .leaf 4582769921796484192352253660069373493116928 1938 .leaf) 4582769923094558406985960567201997575421952 1939 (.node .leaf 4582769923164279189998513184284316251717632 1940 .leaf))))) 4582769924392632621619667474334621657726976 1941 (.node (.node (.node (.node (.node (.node .leaf 4582769925432876361549969930706515530874880 1942 .leaf) 4582769926339743943570227835033557781184512 1943 .leaf) 4582769928286855265520788195732493904642048 1944 (.node .leaf 4582770222625183433713829388055004567306240 1945 .leaf)) 4582770237553036902001458820080181513814016 1946 (.node (.node (.node .leaf 4582770254103483138581221886021138563203072 1947 .leaf) 4582770258646742889799196060985322851270656 1948 .leaf) 4582770259944817104432902968117946933575680 1949 (.node .leaf 4582770260333408958644662407169331825737728 1950 .leaf))) 4582770260333486003704375305698639530164224 4629 (.node (.node (.node (.node .leaf 4582770260336024725947672415690193675223040 1951 .leaf) 4582770260346028519405137573691653498077184 1952 .leaf) 4582770554932182379942797614006769637392384 1953 (.node .leaf 4582770721085681853057281726982652172435456 1954 .leaf)) 4582771053392680799286249952934417242521600 1955 (.node (.node .leaf 4582771219546180272400734065910299777564672 1956 .leaf) 4582771251673517084584980017442745814614016 1957 (.node .leaf 4582771256865813943119807645973242143834112 1958 .leaf)))) 4582771257190332496778234372756398164410368 1959 (.node (.node (.node (.node (.node .leaf 4582771884160178164858670517813829917736960 1960 .leaf) 4582771916936552084359769922912587995938816 1961 .leaf) 4582771922201225107291417309215061622915072 1962 (.node .leaf 4582772065241531106260784062814889399287808 1963 .leaf)) 4582772084063607218449534216237938592710656 1964 (.node (.node (.node .leaf 4582772216467177111087638743765594987823104 1965 .leaf) 4582772253786810781806712323828537354092544 1966 .leaf) 4582772881081175003545575195669125127995392 1967 (.node .leaf 4582837847099468991308863369239196329836544 1968 .leaf))) 4582845490160444754575132566129792941817856 1969 (.node (.node (.node (.node .leaf 4582854993686288641601826410853855517474816 1970 .leaf) 4582854997905029839161373859034883784966144 1971 .leaf) 4582855791677412087673147570634510114488320 1972 (.node .leaf 4582855957830911560787631683610392649531392 1973 .leaf)) 4582856155536234473582745599839217966383104 1974 (.node (.node .leaf 4582856156833190828360977808583608139513856 1975 .leaf) 4582856158058859168036922108817657345081344 1976 (.node .leaf 4582856490041339560607463607986266394591232 1977 .leaf))))))
def t51 : KT := (.node t49 4582600118834880370014408586101039835381760 1904 t50)
def t52 : KT := (.node t48 4581918221554333436774104359960747026939904 1832 t51)
def t53 : KT := (.node (.node (.node (.node (.node (.node (.node .leaf 4582856954751908399474536361465687859789824 1979 .leaf) 4582857154655337453065400059889796534763520 1980 .leaf) 4582857154979856006723826786672952555339776 1981 (.node .leaf 4582857156926967328674387147371888678797312 1982 .leaf)) 4582857324054022462764151440697239275569152 1983 (.node (.node (.node .leaf 4582922917691199225924729212891054271889408 1984 .leaf) 4582939699194646010487624623455190311239680 1985 .leaf) 4582940234711882964107310760366827766808576 1986 (.node .leaf 4582940363808643902945561075358720451411968 1987 .leaf))) 4582940395935980715129807026891166488461312 1988 (.node (.node (.node (.node .leaf 4582941891966513080477017497240421345001472 1989 .leaf) 4582942392698641375429456923650161094164480 1990 .leaf) 4583027459720667519802628772687302809878528 1991 (.node .leaf 4583027461083391915047975379296258755657728 1992 .leaf)) 4583027462380198479081454057027386134757376 1993 (.node (.node (.node .leaf 4583027462390339683883279892239359760400384 1994 .leaf) 4583093058874659695156460900194770155995136 1995 .leaf) 4583109175764108587261419858855376055173120 1996 (.node .leaf 4583109207566926845787239083604666071646208 1997 .leaf)))) 4583109207891445399445665810387822092222464 1998 (.node (.node (.node (.node (.node .leaf 4583109707000980926105971602881781738504192 1999 .leaf) 4583109872893978200873554573850091764842496 2000 .leaf) 4583109873478998952878882442640820294123520 2001 (.node .leaf 4583109875426110274829442803339756417581056 2002 .leaf)) 4583109877697740150438429890821848561614848 2003 (.node (.node (.node .leaf 4583110206759553560083130848942053425938432 2004 .leaf) 4583110504992104372177292762662436335517696 2005 .leaf) 4583110537507976093331491025753621905014784 2006 (.node .leaf 4583110542311738042896366342725378701787136 2007 .leaf))) 4583110542710414156668144489496091859877888 2008 (.node (.node (.node (.node .leaf 4583110544583367918505353430207470845820928 2009 .leaf) 4583111203750271181782588143879667312492544 2010 .leaf) 4583111535338512237682150299182801665130496 2011 (.node .leaf 4583111537639298077096386662899317982887936 2012 .leaf)) 4583112033224902585833887680139533112836096 4630 (.node (.node .leaf 4583112533882101844661188610953876978270208 2013 .leaf) 4583185772527365693038595940737224710029312 2014 (.node .leaf 4583194279781249848695238561172304116580352 2015 .leaf))))) 4583194283350953938937932555787020342919168 2016 (.node (.node (.node (.node (.node (.node .leaf 4583194283675472492596359282570176363495424 2017 .leaf) 4583194578662837768106253928458999067312128 2018 .leaf) 4583194612412767348582633513907225207242752 2019 (.node .leaf 4583194910969836714335222154410764137398272 2020 .leaf)) 4583194947964951831395869007690550483091456 2021 (.node (.node (.node .leaf 4583195077123336187449706267386646672441344 2022 .leaf) 4583195440978355621558619608386864414720000 2023 .leaf) 4583195445521615372776593783351048702787584 2024 (.node .leaf 4583195445522883023376822012752545405992960 2025 .leaf))) 4583195607386652865318977831063584294043648 2026 (.node (.node (.node (.node .leaf 4583195608035689972635831284629896335196160 2027 .leaf) 4583195612903468277512232186377236643840000 2028 .leaf) 4583195613294684564607276631611407679356928 2029 (.node .leaf 4583195907890833553022126832266059347656704 2030 .leaf)) 4583196105592353514016556060290394554892288 2031 (.node (.node .leaf 4583196277517466169970168638280766784012288 2032 .leaf) 4583196572504831445480063284169589487828992 2033 (.node .leaf 4583196607941511274724580621660517742673920 2034 .leaf)))) 4583196738658330918594547397145472022872064 2035 (.node (.node (.node (.node (.node .leaf 4583196772732779052729353709376854183378944 2036 .leaf) 4583196777925075911264181337907350512599040 2037 .leaf) 4583197237118829337937999736073119628001280 2038 (.node .leaf 4583197268665582175217716621720075596988416 2039 .leaf)) 4583197269964924040451651758254196382498816 2040 (.node (.node (.node .leaf 4583197269968093166952222331757938140512256 2041 .leaf) 4583197434779784479725125623249560332664832 2042 .leaf) 4583197436048702730553583254147760241246208 2043 (.node .leaf 4583197437346776945187290161280384323551232 2044 .leaf))) 4583197438397025467476378220420402929205248 2045 (.node (.node (.node (.node .leaf 4583197440329058679748442649371067719614464 2046 .leaf) 4583197569425828284166967962024884698087424 2047 .leaf) 4583197606745461954886041542087827064356864 2048 (.node .leaf 4583279331875422524780780978184268885786624 2049 .leaf)) 4583279348816938971530952814486958874034176 2050 (.node (.node .leaf 4583279350372980083311104404824162058633216 2051 .leaf) 4583279352320091405261664765523098182090752 2052 (.node .leaf 4583279352644609958920091492306254202667008 2053 .leaf))))))
def t54 : KT := (.node (.node (.node (.node (.node (.node (.node .leaf 4583279981561566948951087998062622079451136 2055 .leaf) 4583280018618163120122803977314998530605056 2056 .leaf) 4583280018623233722523716894920985343426560 2057 (.node .leaf 4583280018881200619670161578125564445720576 2058 .leaf)) 4583280018947887446178034733392165261541376 4631 (.node (.node (.node .leaf 4583280480022065368294540336990269684580352 2059 .leaf) 4583280514164966634841671036902473818177536 4632 .leaf) 4583280646175564841409024449966152219623424 2060 (.node .leaf 4583280677653864546276416947932286215520256 2061 .leaf))) 4583280678302901653593270401498598256672768 2062 (.node (.node (.node (.node .leaf 4583280678364382707704339527471188362133504 2063 .leaf) 4583280678370720960705480674478671878160384 2064 .leaf) 4583280679600975868226977308631222338977792 2065 (.node .leaf 4583280681292021768931435330227824414949376 2066 .leaf)) 4583280681548087190177537669330158462435328 2067 (.node (.node (.node .leaf 4583280681936763459381927298525435942404096 4633 .leaf) 4583280682197124297494391122896470503587840 2068 .leaf) 4583280683495198512128098030029094585892864 2069 (.node .leaf 4583280683564285469840536532410664910585856 2070 .leaf)))) 4583281678469084028864442347185453672693760 2071 (.node (.node (.node (.node (.node .leaf 4583281678793602582522869073968609693270016 2072 .leaf) 4583282173104446762019212467096799355600896 2073 .leaf) 4583282180823805092109015407510973524738048 2074 (.node .leaf 4583282473864059045668349692700860105097216 2075 .leaf)) 4583282671569381958463463608929685421948928 2076 (.node (.node (.node .leaf 4583282672469413884625506483992344697765888 2077 .leaf) 4583282675065562313892920298257592862375936 2078 .leaf) 4583283485712909352642883802581332261863424 2079 (.node .leaf 4583348270649850399004058431150343982153728 2080 .leaf))) 4583433341241580633619924274802201924206592 2081 (.node (.node (.node (.node .leaf 4583450157861484345705230565628010158882816 2082 .leaf) 4583450158471224284415008907747924400668672 2083 .leaf) 4583450159769298499048715814880548482973696 2084 (.node .leaf 4583450159813089389998396856724830103273472 2085 .leaf)) 4583450822436185069556091906085142499688448 2086 (.node (.node .leaf 4583450823380584766726122810200186387693568 2087 .leaf) 4583450825003177535018256444115966490574848 2088 (.node .leaf 4583451821339153621699833253180533171552256 2089 .leaf))))) 4583451821345491874700974400188016687579136 2090 (.node (.node (.node (.node (.node (.node .leaf 4583451821924174373705161121971261700833280 2091 .leaf) 4583518411833310868235790118454059866259456 2092 .leaf) 4583621925463482618559392502428879198093312 2093 (.node .leaf 4583688553016771337467521805757775750365184 2094 .leaf)) 4583789777493065581248993461350025937289216 2095 (.node (.node (.node .leaf 4583791069725946249104219511877299871940608 2096 .leaf) 4583792102417507725031301441166566131499008 2097 .leaf) 4625203001781125830010053507864451472162816 2098 (.node .leaf 4625219487648170231746200818973452766543872 2099 .leaf))) 4625221316696219704750302094813374839783424 4634 (.node (.node (.node (.node .leaf 4625221610973066818832274161163295396986880 2100 .leaf) 4625221642521212616709125610984223063146496 4635 .leaf) 4625543284148046768473516882471883240374272 2101 (.node .leaf 4625562258492447580738243669202820638179328 4636 .leaf)) 4625562262966620374243779341785434601553920 2102 (.node (.node .leaf 4625562429511315089472640048530814887002112 2103 .leaf) 4625562429521331262330498060335023701098496 2104 (.node .leaf 4625563056414484069097126326601904910499840 2105 .leaf)))) 4626412599257290103454395972289306585726976 2106 (.node (.node (.node (.node (.node .leaf 4626921062391088860593734537154933936881664 2107 .leaf) 4668766787807981716599634654506314415210496 2108 .leaf) 4668775427789954318552808529252206237450240 2109 (.node .leaf 4668776258557451684125229094131618912665600 2110 .leaf)) 4668776628184084301073270900146326349021184 2111 (.node (.node (.node .leaf 4668777089324949049697649659011031587880960 2112 .leaf) 4668844215338736187949231301267575745282048 2113 .leaf) 4669116042463874203245240129811403075747840 2114 (.node .leaf 4669116208617373676359724242787285610790912 2115 .leaf))) 4669116540924372622588692468739050680877056 2116 (.node (.node (.node (.node .leaf 4669117405766318122295919345849845516599296 2117 .leaf) 4669117405836166413132518357100478802690048 4637 .leaf) 4669117736450724300232753937885830483804160 2118 (.node .leaf 4669118368612866826848017711473758566350848 2119 .leaf)) 4669118534766366299962501824449641101393920 2120 (.node (.node .leaf 4669118572439674488145251407530163661963264 2121 .leaf) 4669118740186610765746619878187402126163968 2122 (.node .leaf 4669184497705657126412694675875007513493504 2123 .leaf))))))
def t55 : KT := (.node t53 4583279354591721280870651853005190326124544 2054 t54)
def t56 : KT := (.node (.node (.node (.node (.node (.node (.node .leaf 4669439709480847830260292206830581339652096 2125 .leaf) 4669447352541823593526561403721177951633408 2126 .leaf) 4669456158677295668594219391442952308916224 2127 (.node .leaf 4669457689106794721734662900806745346539520 2128 .leaf)) 4669457690080350382709943081156213408268288 2129 (.node (.node (.node .leaf 4669457820212290399739060521201777659346944 2130 .leaf) 4669458001293643341141174066202837140897792 2131 .leaf) 4669458018881661594007742897268845763887104 2132 (.node .leaf 4669458019215196064972285048594092106186752 2133 .leaf))) 4669458019215817750239318593188668058370048 4638 (.node (.node (.node (.node .leaf 4669458019791200899671497492842730313744384 2134 .leaf) 4669458318672788819082512860129425264476160 2135 .leaf) 4669458817133287238425965199057072869605376 2136 (.node .leaf 4669458850883216818902344784505299009536000 2137 .leaf)) 4669609850664308299492023894134297223757824 2138 (.node (.node (.node .leaf 4669694921256038534107889737786155165810688 2139 .leaf) 4669711742026230311340419089112169694887936 2140 .leaf) 4669715025829474780960467407867941906022400 2141 (.node .leaf 4669779991847768768723755581438013107863552 2142 .leaf)))) 4669881881262579458621590415716949455536128 2143 (.node (.node (.node (.node (.node .leaf 4669883505477940519047357965412832439697408 2144 .leaf) 4669969074530169173006676147992337986879488 2145 .leaf) 4669969274433598226597539846416446661853184 2146 (.node .leaf 4669969572990667592350128486919985592008704 2147 .leaf)) 4669969773280232427114809429930079296684032 4639 (.node (.node (.node .leaf 4670223823541902359937761286167426471297024 2148 .leaf) 4670290415398150176418950643349160760180736 2149 .leaf) 4670306864594598014752877827961531729444864 2150 (.node .leaf 4670307726840395085192690890807078400557056 4640 .leaf))) 4670308359976093272783234844744474544832512 2151 (.node (.node (.node (.node .leaf 4670310519971586423271528313430947500392448 2152 .leaf) 4670375485989880411034816487001018702233600 2153 .leaf) 4670630697765071114882414017956592528392192 2154 (.node .leaf 4712331604893031280722224146608941537689600 2155 .leaf)) 4712331606777393897961487151933790852481024 2156 (.node (.node .leaf 4712331770983782049125410904210737264066560 2157 .leaf) 4712331771047798404436936488986320775938048 4641 (.node .leaf 4712331935839207307606188110053995716804608 2158 .leaf))))) 4712331942329578380774722645717116128329728 2159 (.node (.node (.node (.node (.node (.node .leaf 4712332437220372709875480990030047507120128 2160 .leaf) 4712332769591530652573431130853719670784000 4642 .leaf) 4712333434465888102220812394668498737954816 2161 (.node .leaf 4712333597049683485092602513029665046659072 2162 .leaf)) 4712333597118136617504926900710487019749376 2163 (.node (.node (.node .leaf 4712333597447725773564266545099629853147136 2164 .leaf) 4712333602305996698938955726335744887750656 2165 .leaf) 4712334261403315352607959214755861581791232 4643 (.node .leaf 4712334262637237038525819145282663248560128 2166 .leaf))) 4712334263286274145842672598848975289712640 2167 (.node (.node (.node (.node .leaf 4712334428141699404323449804692233742450688 2168 .leaf) 4712334593066845445816779627617810871484416 2169 .leaf) 4712334594363781993554383270277802658627584 2170 (.node .leaf 4712334595668064477485106359489045848915968 2171 .leaf)) 4712334893825823904165802738521123269378048 2172 (.node (.node .leaf 4712334925304123609033195236487257265274880 2173 .leaf) 4712400358304616311272543251018842076348416 2174 (.node .leaf 4712417840119101890720315059633670519259136 2175 .leaf)))) 4712485428896346545888409094670700018401280 2176 (.node (.node (.node (.node (.node .leaf 4712502210399793330451304505234836057751552 2177 .leaf) 4712502740405143111174131385707194577059840 4644 .leaf) 4712502743003316810345816082102177708900352 4645 (.node .leaf 4712502875013791222909240957138366197923840 2178 .leaf)) 4712570499488076780504274938322557960454144 2179 (.node (.node (.node .leaf 4712587280991523565067170348886693999804416 2180 .leaf) 4712587318050655037439342786942063857369088 2181 .leaf) 4712587318053190338639799245745057263779840 2182 (.node .leaf 4712587945605521457525106800790224139976704 2183 .leaf))) 4712587982925155128244180380853166506246144 2184 (.node (.node (.node (.node .leaf 4712589440987016715555463817573166955364352 2185 .leaf) 4712589475061464849690270129804549115871232 2186 .leaf) 4712671686969255907225099740635021801684992 2187 (.node .leaf 4712671719485268864764951941623429944311808 4646 .leaf)) 4712671724350370632055242446670554273415168 4647 (.node (.node .leaf 4712671887197203514474390165842286497234944 2188 .leaf) 4712672056982009450066487366672415478251520 4648 (.node .leaf 4712672555380905497175020612360532863746048 2189 .leaf))))))
def t57 : KT := (.node (.node (.node (.node (.node (.node (.node .leaf 4712672716736471518541630865604169678454784 4649 .leaf) 4712672717315663772729957277155387131297792 2191 .leaf) 4712673712363073024279538899598555004010496 2192 (.node .leaf 4712673712363203247350976148223996003876864 2193 .leaf)) 4712673861892602526001022641346671703752704 2194 (.node (.node (.node .leaf 4712673879092085869897639160853940794294272 2195 .leaf) 4712673879770278941019741890654677009170432 2196 .leaf) 4712673883052983964314670463857879871913984 4650 (.node .leaf 4712673884608901282090893516167593144090624 2197 .leaf))) 4712674213021677584418741020721485967261696 2198 (.node (.node (.node (.node .leaf 4712674216266863121003008288553046173024256 2199 .leaf) 4712674543119161534449905399864497350377472 2200 .leaf) 4712674544355120869672429066323782975619072 2201 (.node .leaf 4712674545004157976989282519890095016771584 2202 .leaf)) 4712674545653195084306135973456407057924096 2203 (.node (.node (.node .leaf 4712674547600306406256696334155343181381632 2204 .leaf) 4712674677732246423285813774200907432460288 2205 .leaf) 4712674709929937843782726457516420497408000 2206 (.node .leaf 4712674714402842986688033900697537757577216 2207 .leaf)))) 4712674715051880094004887354263849798729728 2208 (.node (.node (.node (.node (.node .leaf 4712674715081036057810136630498273972453376 2209 .leaf) 4712675207671044547496658611094689033486336 2210 .leaf) 4712675209041431791585181721605270558212096 2211 (.node .leaf 4712675209041494926527185275999290413547520 2212 .leaf)) 4712675209041517209447892412844238597783552 2213 (.node (.node (.node .leaf 4712675674653243261972718452056202642718720 2214 .leaf) 4712675707429617181473817857154960720920576 2215 .leaf) 4712740640671537249736006625626273844559872 2216 (.node .leaf 4712759582170477184787195504876882839470080 2217 .leaf))) 4712825711263267484351872469278131786612736 2218 (.node (.node (.node (.node .leaf 4712841828152716376456831427938737685790720 2219 .leaf) 4712841865147831493517478281218524031483904 2220 .leaf) 4712842530086347939633841459905210192232448 2221 (.node .leaf 4712844154301709000059609009601093176393728 2222 .leaf)) 4712910781854997718967738312929989728665600 2223 (.node (.node .leaf 4713012002761587872506515973907523689250816 2224 .leaf) 4713012004708699194457076334606459812708352 2225 (.node .leaf 4713012006397994647945984828494354527027200 2226 .leaf))))) 4713012006655810516407636695305395936165888 2227 (.node (.node (.node (.node (.node (.node .leaf 4713012007050683678378730153871618984640512 2228 .leaf) 4713012169564124452937853540449718265446400 2229 .leaf) 4713012335787978534365004385208667828387840 2230 (.node .leaf 4713012337736991332215907090009849006653440 2231 .leaf)) 4713012338962809462636604921257161006252032 2232 (.node (.node (.node .leaf 4713012339316483980100280924274741200551936 2233 .leaf) 4713012339611846569953458374823473047404544 2234 .leaf) 4713012340909920784587165281956097129709568 2235 (.node .leaf 4713012499274974969899407952136235170922496 2236 .leaf))) 4713012500645305268746123935154171335933952 2237 (.node (.node (.node (.node .leaf 4713012501871123399166821766401483335532544 2238 .leaf) 4713012832952304214975092161105936406020096 2239 .leaf) 4713012833204566684420509812003780343889920 2240 (.node .leaf 4713012835151678006371070172702716467347456 2241 .leaf)) 4713012997809122156000065419758456373510144 2242 (.node (.node .leaf 4713013000007103264851847378545974920085504 2243 .leaf) 4713013003313769855547183772350125231308800 2244 (.node .leaf 4713013630871171576833404245001278920327168 2245 .leaf)))) 4713013797024671049947888357977161455370240 2246 (.node (.node (.node (.node (.node .leaf 4713013995049441914000516083383155979976704 2247 .leaf) 4713013997252618657197178783184426150920192 2248 .leaf) 4713013999199729979147739143883362274377728 2249 (.node .leaf 4713013999524248532806165870666518294953984 2250 .leaf)) 4713014160809969701044249081895060521353216 2251 (.node (.node (.node .leaf 4713014162108043915677955989027684603658240 2252 .leaf) 4713014162169524969789025115000274709118976 2253 .leaf) 4713014163406118130311662896160308685963264 2254 (.node .leaf 4713014164119312718104520467853542739148800 2255 .leaf))) 4713014328910580496109293555569879179853824 2256 (.node (.node (.node (.node .leaf 4713014627792168415520308922856574130585600 2257 .leaf) 4713014996445245371493070548521813505212416 2258 .leaf) 4713015126252666834863761261784221735714816 2259 (.node .leaf 4713015141180520303151390693809398682222592 2260 .leaf)) 4713015160073078531476853973183829513338880 4651 (.node (.node .leaf 4713015160389983753893675611276355919937536 2261 .leaf) 4713015160390006036814382748121304104173568 2262 (.node .leaf 4713015491408295784806837968720056966709248 2263 .leaf))))))
def t58 : KT := (.node t56 4712672698818106214199633850515493958451200 2190 t57)
def t59 : KT := (.node t55 4669354638889117595644426363178723397599232 2124 t58)
def t60 : KT := (.node t52 4582856822672857060494858560721187485253632 1978 t59)
def t61 : KT := (.node t45 4538447613566233833275304280557604082548736 1684 t60)
def t62 : KT := (.node t30 4407952185509548770593416531778374291423232 1101 t61)
def t63 : KT := (.node (.node (.node (.node (.node (.node (.node .leaf 4713080923038458188199470000233705612771328 2265 .leaf) 4713182110519637314920294802546169454002176 2266 .leaf) 4713182145567641110030381295127019676237824 2267 (.node .leaf 4713182148163789539297795109392267840847872 2268 .leaf)) 4713251064221918657431201687537421496877056 2269 (.node (.node (.node .leaf 4713267219729075434888941133393593844629504 2270 .leaf) 4713267845725365441994097098101557536227328 2271 .leaf) 4713267877203665146861489596067691532124160 2272 (.node .leaf 4713267877852702254178343049634003573276672 2273 .leaf))) 4713267879150776468812049956766627655581696 2274 (.node (.node (.node (.node .leaf 4713267880773369237104183590682407758462976 2275 .leaf) 4713267881422406344421037044248719799615488 2276 .leaf) 4713267883369517666371597404947655923073024 2277 (.node .leaf 4713268046926868710218667703658290293506048 4652 .leaf)) 4713268510339363334452033550005087676399616 2278 (.node (.node (.node .leaf 4713268546036404236878973496152249939787776 2279 .leaf) 4713268546097885290990042622124840045248512 2280 .leaf) 4713268547724914836382975058945858609348608 4653 (.node .leaf 4713269507260360173138938227860382886658048 2281 .leaf)))) 4713269544005244280358634739273434757332992 2282 (.node (.node (.node (.node (.node .leaf 4713269545302554685988102566776446079991808 2283 .leaf) 4713269545878068058491718715055949335232512 2284 .leaf) 4713336134813648892047067531189279438929920 2285 (.node .leaf 4713352953961247900987463248599513865125888 2286 .leaf)) 4713353616693418477406593153981188096917504 2287 (.node (.node (.node .leaf 4713354610303945773597476749827842886336512 2288 .leaf) 4713354613549131310181744017659403092099072 2289 .leaf) 4713354613613281624145489460264577445920768 4654 (.node .leaf 4713421205405379126662933374841137380982784 2290 .leaf))) 4713513919058085124545068415383591935016960 2291 (.node (.node (.node (.node .leaf 4713522425402553879763060382818160777101312 4657 .leaf) 4713522425402571210923610378142009364840448 4658 .leaf) 4713522590586810563777959175776439726243840 2292 (.node .leaf 4713522595135278328741206945557124629921792 4655 .leaf)) 4713522759268005333747532715336748452806656 2293 (.node (.node .leaf 4713523223654055618956178742033013897428992 2294 .leaf) 4713523422656875866326692578186360304697344 4656 (.node .leaf 4713523423944751930916766522614365401645056 2295 .leaf))))) 4713523425829114548156029527939214716436480 2296 (.node (.node (.node (.node (.node (.node .leaf 4713523427776225870106589888638150839894016 2297 .leaf) 4713524419577181934471676013848261803638784 2298 .leaf) 4713524586307462430690004504505144297127936 2299 (.node .leaf 4713524586956499538006857958071456338280448 2300 .leaf)) 4713524587033826224620779951562755233808384 2301 (.node (.node (.node .leaf 4713524751487406242829208437131558770442240 2302 .leaf) 4713524917994580233407368553125021499785216 2303 .leaf) 4713524919263498484235826184023221408366592 2304 (.node .leaf 4713524920561572698869533091155845490671616 2305 .leaf))) 4713525248974349001197380595709738313842688 2306 (.node (.node (.node (.node .leaf 4713525249048010147354978578207060902543360 2307 .leaf) 4713525251634513785776319994750569990324224 2308 .leaf) 4713525253591766312528706190661479739424768 2309 (.node .leaf 4713525398577402237732101642744663799496704 2310 .leaf)) 4713525416499446423758808921105053717102592 2311 (.node (.node (.node .leaf 4713525419742225659357256239664433429741568 2312 .leaf) 4713525419742225697466753756422470304268288 2313 .leaf) 4713525421293700993821972517565585239834624 2314 (.node .leaf 4713525581281347947426348821661503383928832 2315 .leaf)))) 4713525751716971148111791852893249346732032 2316 (.node (.node (.node (.node (.node .leaf 4713525753600699940050940743517350309920768 2317 .leaf) 4713525882110047188787924549647134458118144 2318 .leaf) 4713591346588839595894665062144853265088512 2319 (.node .leaf 4713607495281106746525443245554749180739584 2320 .leaf)) 4713608658031084504668405309602770905464832 2321 (.node (.node (.node .leaf 4713608660627232933935819123868019070074880 2322 .leaf) 4713608828468609181254190684936761923076096 2323 .leaf) 4713608830350436497292997231458617831456768 2324 (.node .leaf 4713609291166782692258949263540167049740288 2325 .leaf))) 4713610288087779530945853941395462259998720 2326 (.node (.node (.node (.node .leaf 4713761487772300065126396749448569149194240 2327 .leaf) 4713846558364030299742262593100427091247104 2328 .leaf) 4713863007560478138076189777712798060511232 2329 (.node .leaf 4713863339867477084305158003664563130597376 2330 .leaf)) 4713864037257848896264193860666851348971520 2331 (.node (.node .leaf 4713931628955760534358128436752285033299968 2332 .leaf) 4713947779270620453281040254077961051832320 2333 (.node .leaf 4713947781606266684201552926335636707737600 2334 .leaf))))))
def t64 : KT := (.node (.node (.node (.node (.node (.node (.node .leaf 4713948441937507023788416345282555068547072 4659 .leaf) 4713948446156248221347963793463583336038400 2336 .leaf) 4713948447515803490092739826568797523804160 2337 (.node .leaf 4713948942994153872399282498475450838286336 2338 .leaf)) 4713948943062756795556360417169535605407744 4660 (.node (.node (.node .leaf 4713949107922525985634990022397415085047808 2339 .leaf) 4713949112392838882098033879282893579091968 2340 .leaf) 4713950570454700469409317316002894028210176 2341 (.node .leaf 4713951068915198888752769654930541633339392 2342 .leaf))) 4713951105971795059924485634182918084493312 2343 (.node (.node (.node (.node .leaf 4714032816436939661078953239064748874530816 2344 .leaf) 4714033019585554251254084205320417755267072 2345 .leaf) 4714033182493868187784301050464740084547584 2346 (.node .leaf 4714033182818386741442727777247896105123840 2347 .leaf)) 4714033516747978455963829637115441278091264 2348 (.node (.node (.node .leaf 4714033517397015563280683090681753319243776 4661 .leaf) 4714033647204437026651373803944161549746176 2349 .leaf) 4714034178116790811837498821187411212500992 2350 (.node .leaf 4714034841757233043320155092741473290944512 2351 .leaf)))) 4714034842148423444895549949535755517820928 4663 (.node (.node (.node (.node (.node .leaf 4714034844353381472587568907006721455554560 2352 .leaf) 4714034846005130204684951817156925732159488 2353 .leaf) 4714034846042645977575495266387743691767808 2354 (.node .leaf 4714035011220075533494910591675838043783168 4662 .leaf)) 4714035142585932284681730820727104365133824 2355 (.node (.node (.node .leaf 4714035179581047401742377674006890710827008 2356 .leaf) 4714035308739431757796214933702986900176896 2357 .leaf) 4714035844519563847858740852693576871575552 2358 (.node .leaf 4714035844908098756828693164252316404023296 2359 .leaf))) 4714035973353429650254151385606517040349184 2360 (.node (.node (.node (.node .leaf 4714118587339708690579695480767299220144128 2361 .leaf) 4714118589286820012530255841466235343601664 2362 .leaf) 4714186840730951238205725967707858859458560 2363 (.node .leaf 4714356981914411707437457655011574743564288 2364 .leaf)) 4714373098803860599542416613672180642742272 2365 (.node (.node .leaf 4714373264957360072656900726648063177785344 2366 .leaf) 4714374127272374084513277256804044581634048 4664 (.node .leaf 4714375125422228196417325374481529141460992 2367 .leaf))))) 4714375294820913206116076755288971882266624 2368 (.node (.node (.node (.node (.node (.node .leaf 4714376089566851115603130647238066273517568 2369 .leaf) 4714376122343225035104230052336824351719424 2370 .leaf) 4714376127287837326458917366226053704450048 4665 (.node .leaf 4755871430678766199979989357118250465361920 2371 .leaf)) 4755887713721714565199432428754738899582976 2372 (.node (.node (.node .leaf 4755887911353513743181309039696755430522880 2373 .leaf) 4755887913691831692909615124742756687151104 2374 .leaf) 4755887914923217833424003034311471656861696 2375 (.node .leaf 4755888578633380847919211922947852411600896 2376 .leaf))) 4755888580186252833198792939781313838186496 2377 (.node (.node (.node (.node .leaf 4755888710642711403886337106610034109841408 2378 .leaf) 4755888909248066242843493897901518702510080 2379 .leaf) 4755889406805997434824446902963513625411584 4666 (.node .leaf 4755889407708564662186946236829166307639296 2380 .leaf)) 4755889409396441436390833684922026625597440 2381 (.node (.node .leaf 4755889409400878213491632487827265086816256 2382 .leaf) 4755889410371264747966342094672991390531584 2383 (.node .leaf 4755889412977554382035581744150213180784640 2384 .leaf)))) 4755889722491561710860871216490506266607616 4667 (.node (.node (.node (.node (.node .leaf 4755889741699637430819117222669301586067456 2385 .leaf) 4755889741711046286221171287282771914915840 2386 .leaf) 4755889741715483063321970090188010376134656 2387 (.node .leaf 4755889745605391486186181261327859175129088 4668 .leaf)) 4755890039870707188802210010417094390185984 2388 (.node (.node (.node .leaf 4755890073693030264835959348961146415611904 4683 .leaf) 4755890405669804991765434530442745401573376 4669 .leaf) 4755890406322000195343680393636209181589504 2389 (.node .leaf 4755890406329480955779906542091540516306944 2390 .leaf))) 4755890407302402791455072607740260226433024 2391 (.node (.node (.node (.node .leaf 4755890410470895466725531996781269888270336 2392 .leaf) 4755890570522558775641433885652771544236032 2393 .leaf) 4755890571107579527646761754443500073517056 2394 (.node .leaf 4755890575975357832523162656190840382160896 2395 .leaf)) 4755890737261079000761245867419382608560128 2396 (.node (.node .leaf 4755890738234634661736526047768850670288896 2397 .leaf) 4755890738632043124908075965138067125174272 2398 (.node .leaf 4755890738636599982192685449929970801442816 2399 .leaf))))))
def t65 : KT := (.node t63 4713948410459207318921023847316421072650240 2335 t64)
def t66 : KT := (.node (.node (.node (.node (.node (.node (.node .leaf 4755972655804097551078314466276812693438464 2401 .leaf) 4755973982435944906726773555818624809172992 2402 .leaf) 4755973983150266019955380823562017065402368 2403 (.node .leaf 4755973985681130443311040823650185014935552 2404 .leaf)) 4756041571862226669211721044421966349467648 2405 (.node (.node (.node .leaf 4756219356106662901709721928616278845554688 2406 .leaf) 4756228328395634449891864029313935737880576 2407 .leaf) 4756228343323487918179493461339112684388352 2408 (.node .leaf 4756228362531563638137739467517908003848192 2409 .leaf))) 4756228362532831288737967696919404707053568 4670 (.node (.node (.node (.node .leaf 4756228362532961538405772977066687550455808 4671 .leaf) 4756228362534098939338195926320901410258944 2410 .leaf) 4756228362540559748403226325975599939584000 4672 (.node .leaf 4756228367662379442561497970075814227607552 2411 .leaf)) 4756228826856132869235316368241583343009792 2412 (.node (.node (.node .leaf 4756228863912865213811353739324198697828352 4673 .leaf) 4756229693714910473905656223133632978485248 2413 .leaf) 4756229695267782459185237239967094405070848 2414 (.node .leaf 4756229823777129707922221046096878553268224 2415 .leaf)))) 4756229859798689164007587719027196837232640 2416 (.node (.node (.node (.node (.node .leaf 4756229989930629181036705159072761088311296 2417 .leaf) 4756230004858482649324334591097938034819072 4674 .leaf) 4756230021408928885904097657038895084208128 2418 (.node .leaf 4756230021471677590615395012412981892874240 2419 .leaf)) 4756230022446500902190903422163946657808384 2420 (.node (.node (.node .leaf 4756230022707003100537804564171519166513152 2421 .leaf) 4756230024005077315171511471304143248818176 2422 .leaf) 4756230027250262851755778739135703454580736 2423 (.node .leaf 4756230027324420411869130159123260592095232 2424 .leaf))) 4756230027574781405414205465918859475156992 2425 (.node (.node (.node (.node .leaf 4756230027638797760725731050694442987028480 2426 .leaf) 4756230191781169556578129218195805886742528 2427 .leaf) 4756230691925741798324784317011823700213760 2428 (.node .leaf 4756230820698126546609125723952173763526656 2429 .leaf)) 4756230858408830427498608074376849068654592 2430 (.node (.node .leaf 4756231018329925724591002334894190294466560 2431 .leaf) 4756231018398378857003326722575012267556864 2432 (.node .leaf 4756231019627999939224709242026814376771584 2433 .leaf))))) 4756231020668107256711971465954859356782592 2434 (.node (.node (.node (.node (.node (.node .leaf 4756231023846741136784256690207842644262912 2435 .leaf) 4756231023913415349360127986433634575843328 2436 .leaf) 4756231023913417825240206557194184374091776 2437 (.node .leaf 4756231023923433998098064568998393188188160 2438 .leaf)) 4756231319158624965952578062879821368655872 2439 (.node (.node (.node .leaf 4756296783637417373059318575377540175626240 2440 .leaf) 4756466924820877842291050262681256059731968 2441 .leaf) 4756559638473583840173185303223710613766144 2442 (.node .leaf 4756568112302056969011875064993719900962816 2443 .leaf))) 4756568642240855093222719901887501501988864 2444 (.node (.node (.node (.node .leaf 4756568642302969972633903142560839959052288 4675 .leaf) 4756568644187966415173280262586437625446400 2445 .leaf) 4756569109223053807698779742849015111221248 2446 (.node .leaf 4756569974126480361517075745932400052404224 2447 .leaf)) 4756569974129015662717532204735393458814976 2448 (.node (.node .leaf 4756569974138643122403054607133283947905024 4676 .leaf) 4756569975038554968381286800309278008672256 2449 (.node .leaf 4756569975100163530316402320450182723928064 4677 .leaf)))) 4756569975105240576291933784029670720667648 4678 (.node (.node (.node (.node (.node .leaf 4756570303775849824367561031646326852419584 2450 .leaf) 4756570304749405485342841211995794914148352 2451 .leaf) 4756570305137940394312793523554534446596096 2452 (.node .leaf 4756570305791414278730445780026084948967424 2453 .leaf)) 4756570305791544262434570744954949357010944 2454 (.node (.node (.node .leaf 4756570305791564069475199311039347742998528 2455 .leaf) 4756570306444945108389905163990280811053056 4679 .leaf) 4756570309941702343877668840526291243368448 2456 (.node .leaf 4756570310266220897536095567309447263944704 2457 .leaf))) 4756570310339869939928387568139472694411264 4680 (.node (.node (.node (.node .leaf 4756570310339869942894033719381609888612352 4681 .leaf) 4756570476095201816992152953502173778411520 2458 .leaf) 4756571103065047485072589098559605531738112 2459 (.node .leaf 4756571135913734434028504707036321052360704 2460 .leaf)) 4756571138113051280182675591140455753973760 2461 (.node (.node .leaf 4756571140775751365962071448984280836866048 2462 .leaf) 4756571140781605584407852012304278795321344 2463 (.node .leaf 4756571302968476538663452796983714206711808 2464 .leaf))))))
def t67 : KT := (.node (.node (.node (.node (.node (.node (.node .leaf 4756722136596068546138647793636829885890560 2466 .leaf) 4756807207187798780754513637288687827943424 2467 .leaf) 4756892277779529015370379480940545769996288 2468 (.node .leaf 4756908426471796166001157664350441685647360 4682 .leaf)) 4756908431740785885849793171671488558792704 2469 (.node (.node (.node .leaf 4756977348371259249986245324592403712049152 2470 .leaf) 4756993465260708142091204283253009611227136 2471 .leaf) 4756994830185744829434017133207232154959872 2472 (.node .leaf 4756995791409700765693981864915365101830144 2473 .leaf))) 4757062418962989484602111168244261654102016 2474 (.node (.node (.node (.node .leaf 4757078905154552439996685206136418969059328 2475 .leaf) 4757078905216177095152311436220897372930048 4684 .leaf) 4757078905216177349602862266203120777297920 2476 (.node .leaf 4757079034312936796050522465832515158409216 2477 .leaf)) 4757079235576063481490680016093451420434432 4685 (.node (.node (.node .leaf 4757079568794994671479341477690481047502848 2478 .leaf) 4757079902400067832342016610774870199894016 2479 .leaf) 4757079902464084187653542195550453711765504 2480 (.node .leaf 4757080197387433107851911256663692903710720 2481 .leaf)))) 4757080396380055205178792130112420325621760 4686 (.node (.node (.node (.node (.node .leaf 4757080396390340011025175069436282249674752 2482 .leaf) 4757080562470805973581978887714216051998720 2483 .leaf) 4757080728697829181509700305976907372953600 2484 (.node .leaf 4757080728701132005534513700550338236383232 4687 .leaf)) 4757080729337358909324842039031994140065792 2485 (.node (.node (.node .leaf 4757080729983860715441239033795312774807552 2486 .leaf) 4757080729995404506307575204858747108196352 2487 .leaf) 4757080729995413171887850202520671402065920 2488 (.node .leaf 4757080729999706347944091901314021564874752 2489 .leaf))) 4757080731932368433756113303444335110389760 4688 (.node (.node (.node (.node .leaf 4757080731933643511996577245127481208340480 4689 .leaf) 4757080731937944115693054656202480765894656 2490 .leaf) 4757080731942380892793853459107719227113472 4691 (.node .leaf 4757080735143832483670246812587643172290560 2491 .leaf)) 4757081360461929419653300047494870649012224 2492 (.node (.node .leaf 4757081391969385088325941821695428818632704 2493 .leaf) 4757081396553339920508282813801082199736320 4690 (.node .leaf 4757081526615428892767784160470753184055296 2494 .leaf))))) 4757081559468495673582691444360061806182400 2495 (.node (.node (.node (.node (.node (.node .leaf 4757081562961506902511577560184227488595968 2496 .leaf) 4757081726518857946358647858894861859028992 2497 .leaf) 4757081726583017902714730547782333669310464 4692 (.node .leaf 4757081892023320312156278518304432352919552 2498 .leaf)) 4757081896242061509715825966485460620410880 2499 (.node (.node (.node .leaf 4757081896308749339632129401894276442357760 4693 .leaf) 4757082025075927312111236499398400789184512 2500 .leaf) 4757147489554719719217977011896119596154880 2501 (.node .leaf 4757163643500764782494651949809101946486784 2502 .leaf))) 4757163643500886100618501917076042060660736 2503 (.node (.node (.node (.node .leaf 4757163643505835384895564867415088759308288 2504 .leaf) 4757164308702318728158372729306354022350848 2505 .leaf) 4757164801069854537504840449940097670840320 2506 (.node .leaf 4757164935672164396238808874363785775677440 2507 .leaf)) 4757164967150464101106201372329919771574272 2508 (.node (.node .leaf 4757164968521428225253031470048604288188416 2509 .leaf) 4757164971369205298665748820510948039065600 2510 (.node .leaf 4757164972667279513299455727643572121370624 2511 .leaf)))) 4757164972991798066957882454426728141946880 2512 (.node (.node (.node (.node (.node .leaf 4757165969654828008498342449077444249911296 2513 .leaf) 4757165969979490407404341842127581859545088 2514 .leaf) 4757165970634721922474763776434395827666944 2515 (.node .leaf 4757165970886350566620067312631491413934080 2516 .leaf)) 4757166800355773717558780970378280006844416 2517 (.node (.node (.node .leaf 4757167594128155966070554681977906336366592 2518 .leaf) 4757317630738180188449708699199835480260608 2519 .leaf) 4757402701329910423065574542851693422313472 2520 (.node .leaf 4757419981293855626971922292343477066792960 2521 .leaf))) 4757420012835036496134815681373112077647872 4694 (.node (.node (.node (.node .leaf 4757420147447355100086406405319359601836032 2522 .leaf) 4757487771921640657681440386503551364366336 2523 .leaf) 4757572842513370892297306230155409306419200 2524 (.node .leaf 4757589494928787929119031112806516184317952 4695 .leaf)) 4757590818641869777741992005402169169674240 2525 (.node (.node .leaf 4757590824735466213039090738396821477916672 2526 .leaf) 4757590824802017869551072781975398396198912 2527 (.node .leaf 4757590824802162708535669171467561593733120 4696 .leaf))))))
def t68 : KT := (.node t66 4756572266139543796873977889390783277039616 2465 t67)
def t69 : KT := (.node t65 4755956501270496434595855200770108407414784 2400 t68)
def t70 : KT := (.node (.node (.node (.node (.node (.node (.node .leaf 4757591119398312934890558657502488161157120 2529 .leaf) 4757591451705311881119526883454253231243264 2530 .leaf) 4757592282472809246691947448333665906458624 2531 (.node .leaf 4757742983696831361529037917459125190524928 2532 .leaf)) 4799427573644646323303301306869516796428288 2533 (.node (.node (.node .leaf 4799443856687594688522744378506005230649344 2534 .leaf) 4799443894656265466558671412135259638071296 2535 .leaf) 4799444037768947629924857923507064712200192 2536 (.node .leaf 4799444054319393866504620989448021761589248 2537 .leaf))) 4799444060485246386014728798327986152538112 2538 (.node (.node (.node (.node .leaf 4799444720303779003051080551862133426487296 2539 .leaf) 4799445352069089946553101395288948046036992 2540 .leaf) 4799445552297037553802391820496212741586944 2541 (.node .leaf 4799445552358518607913460946468802847047680 2542 .leaf)) 4799445555866741644045085815110928967925760 2543 (.node (.node (.node .leaf 4799445718524060761730113238758904062541824 2544 .leaf) 4799445850529588365896553734216595651166208 2545 .leaf) 4799445882723476834592781729327618606497792 2546 (.node .leaf 4799445884677560234844597351734786597584896 2547 .leaf)))) 4799445885253073607348213500014289852825600 2548 (.node (.node (.node (.node (.node .leaf 4799446547270923070538736137652571828387840 2549 .leaf) 4799446547336983376076297289807897867321344 4697 .leaf) 4799446547919960177855589591218883869540352 2550 (.node .leaf 4799446549218034392489296498351507951845376 2551 .leaf)) 4799446550191590053464576678700976013574144 2552 (.node (.node (.node .leaf 4799446550516108607123003405484132034150400 2553 .leaf) 4799446681297085731468974299096008326381568 2554 .leaf) 4799446713424422543653220250628454363430912 2555 (.node .leaf 4799446719007789612358456649520683631509504 2556 .leaf))) 4799446847450585204583458412071890861424640 2557 (.node (.node (.node (.node .leaf 4799446878997338041863175297718846830411776 2558 .leaf) 4799446883541361897063288538282162506432512 2559 .leaf) 4799447013604084677697942525047773396467712 2560 (.node .leaf 4799447050987734703728541689886299274608640 2561 .leaf)) 4799447051248236902075442831893871783313408 2562 (.node (.node .leaf 4799447212533958070313526043122414009712640 2563 .leaf) 4799512644236376557919167150521374738481152 2564 (.node .leaf 4799613868712670801700638806113624925405184 2565 .leaf))))) 4799614533680343211622251261034735259877376 2566 (.node (.node (.node (.node (.node (.node .leaf 4799615026270351701308773241631150320910336 2567 .leaf) 4799615027638780524255146880546841431113728 2568 .leaf) 4799615027641459426500160443461723135934464 4698 (.node .leaf 4799615028934953262988511443577220458610688 2569 .leaf)) 4799615028939390040089310246482458919829504 2570 (.node (.node (.node .leaf 4799615196642592371982804802788061123444736 2571 .leaf) 4799615198589703693933365163486997246902272 2572 .leaf) 4799616195907595250675516325897425775493120 2573 (.node .leaf 4799616656327046727586221873423841675444224 2574 .leaf))) 4799617154787545146929674212351489280573440 2575 (.node (.node (.node (.node .leaf 4799698936383734053390664108717078682271744 2576 .leaf) 4799698938006326821682797742632858785153024 2577 .leaf) 4799699566923283811713794248389226661937152 2578 (.node .leaf 4799699604316498162487912261231623173832704 2579 .leaf)) 4799700263340099962697549925042046818582528 2580 (.node (.node (.node .leaf 4799700264376536787968330996455015895269376 4701 .leaf) 4799700264638174177331256832174670900887552 2581 .leaf) 4799700269181433928549231007138855188955136 2582 (.node .leaf 4799700271128545250499791367837791312412672 2583 .leaf)))) 4799702093047961573120444604361002910220288 4702 (.node (.node (.node (.node (.node .leaf 4799702257506612193729786007535793259675648 2584 .leaf) 4799702262374390498606186909283133568319488 2585 .leaf) 4799702590462648247275607687053870370914304 2586 (.node .leaf 4799775499072543025033033878367545176621056 2587 .leaf)) 4799784009896131270932370493417340809510912 2588 (.node (.node (.node .leaf 4799784139054515626986207753113436998860800 2589 .leaf) 4799784170595696496149101142143072009715712 4699 .leaf) 4799784177023186405022134786742691406282752 2590 (.node .leaf 4799784305208015100100691866089319533903872 2591 .leaf))) 4799784339931500341552351631887013735563264 2592 (.node (.node (.node (.node .leaf 4799784471361514573215175979065202068946944 2593 .leaf) 4799785001373836432239258121245792455884800 2594 .leaf) 4799785001373966701249876515227142094585856 2595 (.node .leaf 4799785002598386912059727723091607752278016 2596 .leaf)) 4799785832067810062998441380838396345188352 2597 (.node (.node .leaf 4799785834741285178879777188594943405326336 2598 .leaf) 4799786000817457965380339308079527044841472 2599 (.node .leaf 4799786002764569287330899668778463168299008 2600 .leaf))))))
def t71 : KT := (.node (.node (.node (.node (.node (.node (.node .leaf 4799786165672883223861116513922785497579520 2602 .leaf) 4799786299050008777474501221799909954420736 2603 .leaf) 4799786501225067706674352007706110773428224 2604 (.node .leaf 4799786631357007723703469447751675024506880 2605 .leaf)) 4799786797510507196817953560727557559549952 2606 (.node (.node (.node .leaf 4799786829050921781096529299367030012510208 2607 .leaf) 4799786829061062985898355134579003638153216 2608 .leaf) 4799786830286881116319052965826315637751808 2609 (.node .leaf 4799786831584955330952759872958939720056832 2610 .leaf))) 4799786834505622313878600414007343905243136 2611 (.node (.node (.node (.node .leaf 4799786963664006669932437673703440094593024 2612 .leaf) 4799786978591860138220067105728617041100800 2613 .leaf) 4799786998454043567896079483079711214534656 4700 (.node .leaf 4799787000010084679676231073416914399133696 2614 .leaf)) 4799787001308158894309937980549538481438720 2615 (.node (.node (.node .leaf 4799787002281714555285218160899006543167488 2616 .leaf) 4799787163954702981893025454284791598809088 2617 .leaf) 4799787462124505089275890012631087699722240 2618 (.node .leaf 4799787494900879008776989417729845777924096 2619 .leaf)))) 4799787628278004562390374125606970234765312 2620 (.node (.node (.node (.node (.node .leaf 4799852926603297496382630525128806506692608 2621 .leaf) 4799870408484478578133029189119202656518144 4703 .leaf) 4799954145887294881629274552190560364396544 2622 (.node .leaf 4799954813746478310671478271925650710331392 2623 .leaf)) 4799954814459531773299857310267546263355392 2624 (.node (.node (.node .leaf 4799954814459674136404375128999159662641152 4705 .leaf) 4799954815757605987933564217400170345660416 2625 .leaf) 4799954815760141289134020676203163752071168 2626 (.node .leaf 4799955308637272639772236616238582089121792 2627 .leaf))) 4799955313180532390990210791202766377189376 4706 (.node (.node (.node (.node .leaf 4799955475115290666545147455997620644741120 2628 .leaf) 4799955479009513310446268177395492891656192 2629 .leaf) 4799955480956624632396828538094429015113728 2630 (.node .leaf 4799955973251270532230173068142112229294080 2631 .leaf)) 4799956478526658578400586669516036266524672 2632 (.node (.node .leaf 4799957138597396719640548946455382118629376 2633 .leaf) 4799957141265801233120971836605942365945856 4707 (.node .leaf 4799957437154466085393137586958921048784896 2634 .leaf))))) 4799957472526988434161650806322927291596800 2635 (.node (.node (.node (.node (.node (.node .leaf 4799958101768463977851074038862451188957184 2636 .leaf) 4800023067786757965614362212432522390798336 2637 .leaf) 4800039184676206857719321171093128289976320 2638 (.node .leaf 4800039216479025116245140395842418306449408 2639 .leaf)) 4800039849290204750177257622996658430148608 2640 (.node (.node (.node .leaf 4800124255267937092335187014744986232029184 2641 .leaf) 4800124290964977994762126960892148495417344 2642 .leaf) 4800124290994133958567376237126572669140992 4704 (.node .leaf 4800124291614015102078980414458460536569856 2643 .leaf))) 4800124452899736270317063625687002762969088 2644 (.node (.node (.node (.node .leaf 4800124456469440360559757620301718989307904 2645 .leaf) 4800124753728435511678639353672633837158400 2646 .leaf) 4800124787802883645813445665904015997665280 2647 (.node .leaf 4800124956877050101853770319928302717894656 2648 .leaf)) 4800125120109882592042413891855781067751424 2649 (.node (.node .leaf 4800125120172751657408312079710501623300096 2650 .leaf) 4800125289184049048082738545880067787980800 2651 (.node .leaf 4800125916802931823480028144503811582459904 2652 .leaf)))) 4800126249109930769708996370455576652546048 2653 (.node (.node (.node (.node (.node .leaf 4800126283261705590457724676178257708580864 2654 .leaf) 4800126415263430242823480483431459187589120 2655 .leaf) 4800126448068960126129829164764641439514624 2656 (.node .leaf 4800126448688841269641433342096529306943488 2657 .leaf)) 4800126581416929715937964596407341722632192 2658 (.node (.node (.node .leaf 4800127260958781076683530480336048809312256 2659 .leaf) 4800127283736560886884470481129560355110912 2660 .leaf) 4800127412184427081510385161286754397847552 2661 (.node .leaf 4800127445934356661986764746734980537778176 2662 .leaf))) 4800127446329229823957858205301203586252800 2663 (.node (.node (.node (.node .leaf 4800127448278242621808760910102384764518400 2664 .leaf) 4800127449179542198571032014566540743540736 2665 .leaf) 4800193208970218434846093899736238274904064 2666 (.node .leaf 4800278279561948669461959743388096216956928 2667 .leaf)) 4800295098130865179398168739015085629898752 2668 (.node (.node .leaf 4800295098709547678402355460798330643152896 2669 .leaf) 4800295761376434248909731552002924659867648 2670 (.node .leaf 4800296224139891765826243944783410001608704 2671 .leaf))))))
def t72 : KT := (.node t70 4799786132896509304360017108824027419377664 2601 t71)
def t73 : KT := (.node (.node (.node (.node (.node (.node (.node .leaf 4800363350153678904077825587039954159009792 2672 .leaf) 4800380169049649268872917768253092998938624 4709 .leaf) 4800448420745409138693691430691812101062656 2673 (.node .leaf 4800465202248855923256586841255948140412928 2674 .leaf)) 4800465239893008147634087148102046527258624 2675 (.node (.node (.node .leaf 4800533491337139373309557274343670043115520 2676 .leaf) 4800550272840586157872452684907806082465792 2677 .leaf) 4800550969001336887610106022458292191625216 2678 (.node .leaf 4800550975747773382024742897223746650636288 2679 .leaf))) 4800634880019821768254952682212866641625088 2680 (.node (.node (.node (.node .leaf 4800634880083838123566478266988450153496576 2681 .leaf) 4800635043974085139370757972167193100550144 4710 .leaf) 4800635046173321241369436795188749176668160 2682 (.node .leaf 4800635177278816919373834415583781489475584 2683 .leaf)) 4800635343432316392488318528559664024518656 2684 (.node (.node (.node .leaf 4800635675739315338717286754511429094604800 2685 .leaf) 4800635708515689258218386159610187172806656 2686 .leaf) 4800636045432499612177310604104713449242624 2687 (.node .leaf 4800636540581260838424513631622223930327040 2688 .leaf)))) 4800636542593786428043891282791814859325440 2689 (.node (.node (.node (.node (.node .leaf 4800636704207065014683908318013680273850368 4711 .leaf) 4800636705506544291262204131758314862149632 4712 .leaf) 4800636706797509016250295099972193274036224 2690 (.node .leaf 4800636706807793822096678039296055198089216 4713 .leaf)) 4800636706812086998152919738089405360898048 2691 (.node (.node (.node .leaf 4800636708681871633489558105297042588827648 2692 .leaf) 4800636711927057170073825373128602794590208 2693 .leaf) 4800636838813811650518675545342606839906304 2694 (.node .leaf 4800636870357395361297821857485821050880000 2695 .leaf))) 4800636871661807828932669911625928649211904 4714 (.node (.node (.node (.node .leaf 4800636872888259784653481857573989000413184 2696 .leaf) 4800636872961287105510965725370563237511168 4715 .leaf) 4800636872965586471267403851065287895941120 2697 (.node .leaf 4800637171120810596747643771294371909992448 2698 .leaf)) 4800637207210953168949459796834376575090688 2699 (.node (.node .leaf 4800637207210973087211263767464659034046464 4716 .leaf) 4800637534968224127255187735885609433038848 2700 (.node .leaf 4800637534978515122801767102110845852712960 2701 .leaf))))) 4800637701708645828275342061754465552171008 2702 (.node (.node (.node (.node (.node (.node .leaf 4800637702357682935592195515320777593323520 2703 .leaf) 4800637707225461240468596417068117901967360 2704 .leaf) 4800637867213108194072972721164036046061568 2705 (.node .leaf 4800638001888307962320064336173784585207808 2706 .leaf)) 4800638037585348864747004282320946848595968 2707 (.node (.node (.node .leaf 4800638200886634487347972241929247171543040 2708 .leaf) 4800638200887389630771936323896935637319680 4717 .leaf) 4800638369243310703659119054706399877529600 2709 (.node .leaf 4800703632520599842541288961647385927221248 2710 .leaf))) 4800721078638044519562120824115052106743808 2711 (.node (.node (.node (.node .leaf 4800722606858662401804874601370839808999424 2712 .leaf) 4800788703112330077157154805299243869274112 2713 .leaf) 4800873773704060311773020648951101811326976 2714 (.node .leaf 4800893213663498666167661867129358411366400 2715 .leaf)) 4800958844295790546388886492602959753379840 2716 (.node (.node .leaf 4800974992988057697019664676012855669030912 2717 .leaf) 4800974998895943319383327801688240957685760 2718 (.node .leaf 4800975293492238384722813677215330722643968 2719 .leaf)))) 4800975326335310037660530800765103815786496 4718 (.node (.node (.node (.node (.node .leaf 4800975625799237330951781903167095792730112 2720 .leaf) 4800975663118871001670855483230038158999552 2721 .leaf) 4800976322865090589252391033386227990528000 2722 (.node .leaf 4800976323838646250227671213735696052256768 2723 .leaf)) 4800976788873733642753170693998273538031616 2724 (.node (.node (.node .leaf 4800976955027233115867654806974156073074688 2725 .leaf) 4800976991119147180265688211687541384937472 4719 .leaf) 4800977319461568874280868984458367180210176 2726 (.node .leaf 4800977486264105454712206551000561756405760 2727 .leaf))) 4800977487562179669345913458133185838710784 2728 (.node (.node (.node (.node .leaf 4800978149642277709471862157514495376752640 2729 .leaf) 4801043914887520781004752336254817695432704 2730 .leaf) 4801060063579787931635530519664713611083776 2731 (.node .leaf 4801060733458972592141417790684800514785280 2732 .leaf)) 4801061361004965458025584198722483874955264 2733 (.node (.node .leaf 4801061392807783716551403423471773891428352 2734 .leaf) 4801061393853595461739692679706554035863552 2735 (.node .leaf 4801061394105857931185110330604397973733376 2736 .leaf))))))
def t74 : KT := (.node (.node (.node (.node (.node (.node (.node .leaf 4801061396767290366364277959046726353420288 2738 .leaf) 4801061397351043467769377598435958179495936 2739 .leaf) 4801062889233823069169821467088000148045824 4720 (.node .leaf 4801062892476607255952297216258382741110784 2740 .leaf)) 4801063022539960189170425328481309225385984 2741 (.node (.node (.node .leaf 4801063390283497839479432358572664050155520 2742 .leaf) 4801145102368699907725577138567281536663552 2743 .leaf) 4801145600829198327069029477494929141792768 2744 (.node .leaf 4801145802679738702610453536617973940224000 2745 .leaf))) 4801145966301106101769049420104191822528512 2746 (.node (.node (.node (.node .leaf 4801146467293736595068389988521504080396288 2747 .leaf) 4801146469240847917018950349220440203853824 2748 .leaf) 4801147096210693585099386494277871957180416 2749 (.node .leaf 4801147128987067504600485899376630035382272 2750 .leaf)) 4801147130285141719234192806509254117687296 2751 (.node (.node (.node .leaf 4801147262364193058213870607253754492223488 2752 .leaf) 4801147428517692531328354720229637027266560 2753 .leaf) 4801148296280305013961422138388836048175104 2754 (.node .leaf 4801214056070981250236484023558533579538432 2755 .leaf)))) 4801299126662711484852349867210391521591296 2756 (.node (.node (.node (.node (.node .leaf 4801487378577614523562849868885303725391872 2757 .leaf) 4801487877038112942906302207812951330521088 2758 .leaf) 4801554338437902188699947398165965347749888 2759 (.node .leaf 4801570455327351080804906356826571246927872 2760 .leaf)) 4842983716610526446626613256620783127494656 2761 (.node (.node (.node .leaf 4843000331960473758075024554209036631801856 2762 .leaf) 4843001694037733372005120053700915424657408 2763 .leaf) 4843002690561321747520474814186994180030464 2764 (.node .leaf 4843002857039339774293385653946032735649792 2765 .leaf))) 4843002861971134434481312140468956556165120 2766 (.node (.node (.node (.node .leaf 4843003024490913462041576674054539352997888 2767 .leaf) 4843084935894523831873257283682536985198592 2768 .leaf) 4843084941086820690408084912213033314418688 2769 (.node .leaf 4843085603753707260915461003417627331133440 2770 .leaf)) 4843086233319701358263310962740307249070080 2771 (.node (.node .leaf 4843086269016742260690250908887469512458240 2772 .leaf) 4843086269082026266602004723064549727535104 2773 (.node .leaf 4843086765919931917653323428076417229783040 4721 .leaf))))) 4843087728701196616293667979523250064457728 2774 (.node (.node (.node (.node (.node (.node .leaf 4843088262209698830747206811031747891822592 2775 .leaf) 4843170639297433700421240354488635050950656 2776 .leaf) 4843171137757932119764692693416282656079872 2777 (.node .leaf 4843171169309121734145208381968477086285824 4722 .leaf)) 4843171170607829774079029403801849520193536 2778 (.node (.node (.node .leaf 4843171337012324066038702938274079289901056 2779 .leaf) 4843171338959435387989263298973015413358592 2780 .leaf) 4843171833919316674802460145667517116841984 2781 (.node .leaf 4843172333284283797408754162563062459006976 2782 .leaf))) 4843172830833975260488223676515328811073536 2783 (.node (.node (.node (.node .leaf 4843172830844880569272188577326433824669696 2784 .leaf) 4843172832069300770410633228273866084712448 2785 .leaf) 4843172833440898719857577440693298952929280 2786 (.node .leaf 4843173167693861417620688479829168658317312 2787 .leaf)) 4843173332862910119474141780656195939336192 2788 (.node (.node .leaf 4843173334812556742625158600158125469204480 2789 .leaf) 4843255576575420911435132960338203696431104 2790 (.node .leaf 4843255745005750846263642043331029596372992 4723 .leaf)))) 4843256406630498639679288601576469170225152 2791 (.node (.node (.node (.node (.node .leaf 4843256410524721283580409322974341417140224 2792 .leaf) 4843256412213988264448414253115913451601920 4724 .leaf) 4843257371424158666181947327899318343434240 2793 (.node .leaf 4843257408419273783242594181179104689127424 2794 .leaf)) 4843258400546072997108142390066513736368128 2795 (.node (.node (.node .leaf 4843258400546158414970853081305481775939584 2796 .leaf) 4843341943555390481454360832623528680357888 2797 .leaf) 4843342309287800454501281917240363869798400 2798 (.node .leaf 4843342940476387320141265510478823890616320 2799 .leaf))) 4843342977869544725673576395828575042797568 4725 (.node (.node (.node (.node .leaf 4843343304261685971237626234396722956599296 2800 .leaf) 4843343605090385212599201962382354030788608 2801 .leaf) 4843426515686622296726774337347739017281536 2802 (.node .leaf 4843426553394790876415800228969420915998720 2803 .leaf)) 4843426553404298255917511949480646190039040 2804 (.node (.node .leaf 4843510294045471863487414130472323024683008 2805 .leaf) 4843510294761206704240885302489650080776192 2806 (.node .leaf 4843510294764863579116934315821702093733888 2807 .leaf))))))
def t75 : KT := (.node t73 4801061396766022715764049729645229650214912 2737 t74)
def t76 : KT := (.node t72 4800297259100547816161856502751774998790144 4708 t75)
def t77 : KT := (.node t69 4757590953244813461776074544526605626114048 2528 t76)
def t78 : KT := (.node (.node (.node (.node (.node (.node (.node .leaf 4843510957425411896623169260018812594421760 2809 .leaf) 4843510957685914094970070402026385103126528 2810 .leaf) 4843510958659469755945350582375853164855296 2811 (.node .leaf 4843511619054726450843739586098355037536256 2812 .leaf)) 4843511623597986202061713761062539325603840 2813 (.node (.node (.node .leaf 4843511623922504755720140487845695346180096 2814 .leaf) 4843512084738850950686092519927244564463616 2815 .leaf) 4843512124005595943355726460689123054190592 2816 (.node .leaf 4843512451197624717663789051601690690584576 2817 .leaf))) 4843513117681407245458363870712858058686464 2818 (.node (.node (.node (.node .leaf 4843513614194794342851255848941569540358144 2819 .leaf) 4843514244734344101174385988613717520023552 2820 .leaf) 4843514280431385003601325934760879783411712 2821 (.node .leaf 4843579210752638088937674162183788721864704 2822 .leaf)) 4843595359444905239568452345593684637515776 2823 (.node (.node (.node .leaf 4843664281344368323553540005835646663917568 2824 .leaf) 4843680763390079990901689786132836145692672 2825 .leaf) 4843680929542945638716059784407970329133056 2826 (.node .leaf 4843681262102207054390445661257579337089024 2827 .leaf)))) 4843681395154814054345403642351547773353984 2828 (.node (.node (.node (.node (.node .leaf 4843682258772209074232160917616527312683008 2829 .leaf) 4843682591654721392964745291847795638009856 2830 .leaf) 4843682595937620071000296858155745917534208 2831 (.node .leaf 4843683424369330080487726217426144436682752 2832 .leaf)) 4843683425088087970817132288074775154130944 2833 (.node (.node (.node .leaf 4843683426705112484812560281514058996252672 2834 .leaf) 4843683587998937208547805592022090889822208 2835 .leaf) 4843749351936098558169405849487504605970432 2836 (.node .leaf 4843834422527828792785271693139362548023296 2837 .leaf))) 4843851239728316479775107049850660850761728 2838 (.node (.node (.node (.node .leaf 4843851241424432982880477989053249739554816 4726 .leaf) 4843851901421647389307202960705786805747712 2839 .leaf) 4843935610009007919506096495451826389254144 2840 (.node .leaf 4843935645706048821933036441598988652642304 2841 .leaf)) 4843935647401531499738293266100829189832704 2842 (.node (.node .leaf 4843936108469506338849548834379473994383360 2843 .leaf) 4843936141245880258350648239478232072585216 2844 (.node .leaf 4843936311618120929024679800635142875119616 2845 .leaf))))) 4843936312005388187394403882792385704361984 2846 (.node (.node (.node (.node (.node (.node .leaf 4843936312016288525075398528248324326162432 4727 .leaf) 4843936312267158036341533254201454916272128 2847 .leaf) 4843936474850953419213323372562621224976384 2848 (.node .leaf 4843936939237003704421969399258886669598720 2849 .leaf)) 4843936970715303409289361897225020665495552 2850 (.node (.node (.node .leaf 4843936971428356871917740935566916218519552 2851 .leaf) 4843936971718015034069891353808912900947968 2852 .leaf) 4843936972337896177581495531140800768376832 2853 (.node .leaf 4843936972732908257218520906745489303535616 4728 .leaf))) 4843936974285007499532055891839736891834368 2854 (.node (.node (.node (.node .leaf 4843936974999328612760663159583129148063744 2855 .leaf) 4843936975258563160507336072189204953563136 2856 .leaf) 4843936976585793338946292255556253209591808 2857 (.node .leaf 4843936976622555206352910908199657602547712 2858 .leaf)) 4843936976945172284110995290880568568315904 2859 (.node (.node (.node .leaf 4843936976947844996655812426894075777515520 2860 .leaf) 4843936977530193036116323159671297097596928 2861 .leaf) 4843937471835966613211753635193499947106304 2862 (.node .leaf 4843937969650114255123601795751366610649088 2863 .leaf)))) 4843937971925530989312762861494375175684096 4729 (.node (.node (.node (.node (.node .leaf 4843937973153115660169520930393968225550336 2864 .leaf) 4843938137359503811333444682670914637135872 2865 .leaf) 4843938766925497908681294641993594555072512 2866 (.node .leaf 4843938964881815640321597979718767106588672 2867 .leaf)) 4843938968515536085875817559109066844798976 2868 (.node (.node (.node .leaf 4843938968776038284222718701116639353503744 2869 .leaf) 4843938970398631052514852335032419456385024 2870 .leaf) 4843939099232496854910262867945359625158656 2871 (.node .leaf 4843939597692995274253715206873007230287872 2872 .leaf))) 4844020714350667734598341924551910471237632 2873 (.node (.node (.node (.node .leaf 4844020715648741949232048831684534553542656 2874 .leaf) 4844020718311593063696237505921897329590272 2875 .leaf) 4844020879530611546737545857178324944551936 2876 (.node .leaf 4844020881802241422346532944660417088585728 2877 .leaf)) 4844021345214736046579898791007214471479296 2878 (.node (.node .leaf 4844021377408110770159823353304154290257920 4730 .leaf) 4844021380973258003117907863126966840328192 2879 (.node .leaf 4844021382282866105097636658280826063028224 2880 .leaf))))))
def t79 : KT := (.node (.node (.node (.node (.node (.node (.node .leaf 4844021382931294145915161704751887735062528 2882 .leaf) 4844022041307033643905227740876878607548416 2883 .leaf) 4844022041985226715027330470677614822424576 2884 (.node .leaf 4844022042017551805333150320415780754161664 2885 .leaf)) 4844022042280589304880507921226346669277184 2886 (.node (.node (.node .leaf 4844022045525774841464775189057906875039744 2887 .leaf) 4844022045592326497976757232636483793321984 2888 .leaf) 4844022707288950328013352255022841418743808 2889 (.node .leaf 4844023040239158159854218364206693453135872 2890 .leaf))) 4844023042446771680151679866913202085298176 2891 (.node (.node (.node (.node .leaf 4844023206977678384974030345973304517459968 2892 .leaf) 4844023209968699976212537618804775730544640 2893 .leaf) 4844089634303019496632869224094936374181888 2894 (.node .leaf 4844105751192468388737828182755542273359872 2895 .leaf)) 4844105783319805200922074134287988310409216 2896 (.node (.node (.node .leaf 4844105786889509291164768128902704536748032 2897 .leaf) 4844106083499467334966796408707307343446016 2898 .leaf) 4844106117642368601513927108619511477043200 2899 (.node .leaf 4844106249652966808081280521683189878489088 2900 .leaf)))) 4844106285674526264166647194613508162453504 2901 (.node (.node (.node (.node (.node .leaf 4844106451503507183622704580806234676920320 2902 .leaf) 4844106453199623686728075520008823565713408 2903 .leaf) 4844106786082136005460659894240091891040256 2904 (.node .leaf 4844107112547800985837947038095048590753792 2905 .leaf)) 4844107116442023629739067759492920837668864 2906 (.node (.node (.node .leaf 4844107117740097844372774666625544919973888 2907 .leaf) 4844107118389134951689628120191856961126400 2908 .leaf) 4844107445580529900697576596403676245917696 2909 (.node .leaf 4844108109859868034695260486312076739870720 2910 .leaf))) 4844108112780657573684990280007695938355200 4731 (.node (.node (.node (.node .leaf 4844108112790676222422926862572454550700032 2911 .leaf) 4844108114405783167297501801965919649398784 4732 .leaf) 4844108115056104018435094194877302082371584 4733 (.node .leaf 4844108115310131790376532798047152171384832 4734 .leaf)) 4844108741955458904798542216321427904135168 2912 (.node (.node .leaf 4844108778368088571054317659613479126958080 2913 .leaf) 4844108778368229930750405198202877520117760 2914 (.node .leaf 4844108779924129682834469249950682311557120 2915 .leaf))))) 4844108940955053080426678351478387193675776 2916 (.node (.node (.node (.node (.node (.node .leaf 4844108942183406512047832641528692599685120 2917 .leaf) 4844108942248056692659472341005024463159296 2918 .leaf) 4844109109634980199796023661637199217033216 2919 (.node .leaf 4844109271894257029009387053215209505161216 2920 .leaf)) 4844174704894749731248735067746794316234752 2921 (.node (.node (.node .leaf 4844191353021070962198245770433805898743808 2922 .leaf) 4844191354319145176831952677566429981048832 2923 .leaf) 4844192483319193354498535156166225565843456 2924 (.node .leaf 4844193348161138854205762033277020401565696 2925 .leaf))) 4844193678845545032142596625313005368770560 2926 (.node (.node (.node (.node .leaf 4844193850191341363791908366819384233033728 2927 .leaf) 4844275892375928857969559870059258157465600 2928 .leaf) 4844276589441782116270169000278390355263488 2929 (.node .leaf 4844276593985041867488143175242574643331072 2930 .leaf)) 4844276594046522921599212301215164748791808 2931 (.node (.node .leaf 4844276594046650429423258695383479358586880 2932 .leaf) 4844277055450425169770948660890435902767104 2933 (.node .leaf 4844277086998445657650893775938888574959616 2934 .leaf)))) 4844277088299055173485057141874506063675392 2935 (.node (.node (.node (.node (.node .leaf 4844277257366249551224126534190560916275200 2936 .leaf) 4844277258992702216558751983803476488486912 4735 .leaf) 4844277259248076867262933080712416824655872 2937 (.node .leaf 4844278254221962383999277397868775911456768 2938 .leaf)) 4844278255911106808803393075363132932620288 2939 (.node (.node (.node .leaf 4844278716985419900915789790649261253197824 2940 .leaf) 4844279215445918320259242129576908858327040 2941 .leaf) 4844279880059916212717178581480438998499328 2942 (.node .leaf 4844344846078210200480466755050510200340480 2943 .leaf))) 4844446033559389327201291557362974041571328 2944 (.node (.node (.node (.node .leaf 4844446048487242795488920989388150988079104 2945 .leaf) 4844446066984800354019244416028044160925696 2946 .leaf) 4844446068674095807508152909915938875244544 2947 (.node .leaf 4844446069321839267483953141094981331582976 2948 .leaf)) 4844446729651686924526620507232638177640448 2949 (.node (.node .leaf 4844446729720140056938944894913460150730752 2950 .leaf) 4844446732247835353794034321497886342250496 2951 (.node .leaf 4844446735558938721590169518207275114692608 2952 .leaf))))))
def t80 : KT := (.node t78 4844021382858888270957399097853312858324992 2881 t79)
def t81 : KT := (.node (.node (.node (.node (.node (.node (.node .leaf 4844446736791095105012008496462070630318080 2954 .leaf) 4844447068449056943924123268847523659251712 2955 .leaf) 4844447394265684816984556959136168317812736 2956 (.node .leaf 4844447394976202978412479538675070464425984 2957 .leaf)) 4844447397835388907227250953750884544151552 2958 (.node (.node (.node .leaf 4844447398484426014544104407317196585304064 2959 .leaf) 4844447398808944568202531134100352605880320 2960 .leaf) 4844447400508230197808472646806683252686848 2961 (.node .leaf 4844447400756055890153091494799288729337856 2962 .leaf))) 4844448061475831138709907225304946622595072 2963 (.node (.node (.node (.node .leaf 4844448226331256397190684431148205075333120 2964 .leaf) 4844448392809274423963595270907243630952448 2965 .leaf) 4844448397742336734751749986831664154673152 2966 (.node .leaf 4844448558638255343419652657099970145419264 2967 .leaf)) 4844448891918809950623901063401203277234176 2968 (.node (.node (.node .leaf 4844449057098753762763104996027617750548480 2969 .leaf) 4844449057168474545775657613109936426844160 2970 .leaf) 4844449061966532067639505897774958059192320 2971 (.node .leaf 4844449224292360553364851332931545265602560 2972 .leaf)))) 4844449224296299932992074044051279811969024 4736 (.node (.node (.node (.node (.node .leaf 4844449224298194964770003330167144838070272 4737 .leaf) 4844449224302501758166677168143518891245568 2973 .leaf) 4844449224625244129568112755419323475951616 4738 (.node .leaf 4844449229742624309046123644666620697116672 2974 .leaf)) 4844449392001901138259487036244630985244672 2975 (.node (.node (.node .leaf 4844450021243376681948910268784154882605056 2976 .leaf) 4844531139199123356927243893595682205859840 2977 .leaf) 4844531436458118508046125626966597053710336 2978 (.node .leaf 4844531469234492427547225032065355131912192 2979 .leaf))) 4844531472550666397744273146380730717175808 2980 (.node (.node (.node (.node .leaf 4844531472550796381448398111309595125219328 2981 .leaf) 4844531473453233625106772480246383399403520 2982 .leaf) 4844532466155489266234129709920650342170624 2983 (.node .leaf 4844532471089965304547148330119005665755136 2984 .leaf)) 4844532471093622179423197343451057678712832 2985 (.node (.node .leaf 4844532471099960432424338490458541194739712 2986 .leaf) 4844532471347786124768957338451146671390720 2987 (.node .leaf 4844532931839613766076482643749539869097984 2988 .leaf))))) 4844533430300112185419934982677187474227200 2989 (.node (.node (.node (.node (.node (.node .leaf 4844533627931911363401811593619204005167104 2990 .leaf) 4844533630267698719486802799228218161233920 4739 .leaf) 4844533632475171114619785768583388293234688 2991 (.node .leaf 4844534292545909255859748045522734145339392 2992 .leaf)) 4844534292619562974377110315738407339294720 2993 (.node (.node (.node .leaf 4844534295210510817539486247468804283039744 2994 .leaf) 4844534295215581419940399165074791095861248 2995 .leaf) 4844616210439890698859963190813852189065216 2996 (.node .leaf 4844616874468995347136618168094968409751552 2997 .leaf))) 4844616876381118769756855826084430585266176 2998 (.node (.node (.node (.node .leaf 4844616876424852715464729740436066845851648 2999 .leaf) 4844616876676481359610033276633162432118784 3000 .leaf) 4844616876750130402002325277463187862585344 4740 (.node .leaf 4844616876750142781402718131265936853827584 4741 .leaf)) 4844617337817346108234412035497867670978560 3001 (.node (.node .leaf 4844617370664216999152695991111306176364544 4742 .leaf) 4844617370666739920952759596111550591533056 3002 (.node .leaf 4844617371891794242369218347729249831485440 3003 .leaf)))) 4844617536127338357338391376240620416794624 3004 (.node (.node (.node (.node (.node .leaf 4844617536159663447644211225978786348531712 3005 .leaf) 4844617536162198748844667684781779754942464 3006 .leaf) 4844617537071738054508422280355664304799744 3007 (.node .leaf 4844617541290479252067969728536692572291072 3008 .leaf)) 4844618538211476090754874406391987782549504 3009 (.node (.node (.node .leaf 4844685128445131138943930129657941968551936 3010 .leaf) 4844701443029899150386537846545913361727488 4743 .leaf) 4844701446536083299273459693875280625008640 3011 (.node .leaf 4844701611458060214266218943297115996028928 3012 .leaf))) 4844701947592730147884325847068176394747904 3013 (.node (.node (.node (.node .leaf 4844703073023074235308214331053255753203712 3014 .leaf) 4844703437521567474197432626664388872372224 3015 .leaf) 4844703437781928547379855235320622880915456 3016 (.node .leaf 4844704734558068966453055460812081103634432 3017 .leaf)) 4844787016237349060549631330021098213343232 3018 (.node (.node .leaf 4844787017605269090139858677643805783490560 3019 .leaf) 4844787017608313184696461427739782729957376 3020 (.node .leaf 4844787017608947009996575542440531081560064 3021 .leaf))))))
def t82 : KT := (.node (.node (.node (.node (.node (.node (.node .leaf 4844787682473939721299701415840408456396800 3022 .leaf) 4844787682865009931470110186202141395255296 3023 .leaf) 4844788677123306684377619006213611522621440 3024 (.node .leaf 4844871917827168923338181595533981517873152 3025 .leaf)) 4844872086180042187848643720106644114243584 3026 (.node (.node (.node .leaf 4844872088525195798270868112875545044189184 3027 .leaf) 4844872715746036285196493679429324032180224 3028 .leaf) 4844873580587981784903720556540118867902464 3029 (.node .leaf 4844873712667033123883398357284619242438656 3030 .leaf))) 4844957818856296098230903497622575963439104 4745 (.node (.node (.node (.node .leaf 4845041527701500969512352462925979635941376 3031 .leaf) 4886539859576406569949925206372049458561024 3032 .leaf) 4886556340251154113151244888950554423721984 3033 (.node .leaf 4886556341549228327784951796083178506027008 3034 .leaf)) 4886556346417006632661352697830518814670848 3035 (.node (.node (.node .leaf 4886556474926353881398336503960302962868224 3036 .leaf) 4886557004934872788621733957936403240189952 3037 .leaf) 4886557004938675740422418646140893349806080 3038 (.node .leaf 4886557305693851246970757068839715638083584 3039 .leaf)))) 4886557341390892149397697014986877901471744 3040 (.node (.node (.node (.node (.node .leaf 4886557804154349666314209407767363243212800 3041 .leaf) 4886557839588496670238348857215847889895424 4746 .leaf) 4886558167939648317410570131685262309195776 3042 (.node .leaf 4886558169306175664456601426498708364591104 3043 .leaf)) 4886558174182193698234485819355777244069888 3044 (.node (.node (.node .leaf 4886558175728093605212811574481006803025920 3045 .leaf) 4886558468768347558772145859670893383385088 3046 .leaf) 4886558506737018336808072893300147790807040 3047 (.node .leaf 4886558832615894786803932645331820011847680 3048 .leaf))) 4886558832619055247724228221173637475991552 3049 (.node (.node (.node (.node .leaf 4886558832619071575476347936355271057604608 4747 .leaf) 4886558832622224374224798794677379234004992 4748 .leaf) 4886558832622733167580945085970362774061056 4749 (.node .leaf 4886558832622858199524912909378127585607680 4750 .leaf)) 4886558833593753527355768807516837429379072 3050 (.node (.node .leaf 4886558833851720424502213490721416531673088 3051 .leaf) 4886558833920173556914537878402238504763392 3052 (.node .leaf 4886558835149794639135920397854040613978112 3053 .leaf))))) 4886558835222684548649043588440101048287232 3054 (.node (.node (.node (.node (.node (.node .leaf 4886559166158719370731181716673181601759232 3055 .leaf) 4886559166230975454944190792558493684465664 3056 .leaf) 4886559167198949244282333193248441595068416 3057 (.node .leaf 4886559167208967893020269775813200207413248 3058 .leaf)) 4886559170444134780866600461080001800830976 3059 (.node (.node (.node .leaf 4886559465689344397459050537526188593643520 3060 .leaf) 4886559964149842816802502876453836198772736 3061 .leaf) 4886624930168136804565791050023907400613888 3062 (.node .leaf 4886795071351597273797522737327623284719616 3063 .leaf))) 4886887785004303271679657777870077838753792 3064 (.node (.node (.node (.node .leaf 4886896258832776400518347539640087125950464 3065 .leaf) 4886896295896344649991318780600695444733952 3066 .leaf) 4886896591139775346747315765591852196036608 3067 (.node .leaf 4886896757293274819861799878567734731079680 3068 .leaf)) 4886896790069648739362899283666492809281536 3069 (.node (.node .leaf 4886896791367722953996606190799116891586560 3070 .leaf) 4886896791429204008107675316771706997047296 3071 (.node .leaf 4886896791430471658707903546173203700252672 3072 .leaf)))) 4886896923446774292976283991543617266122752 3073 (.node (.node (.node (.node (.node .leaf 4886896955898629658818956669859219323748352 3074 .leaf) 4886896961739963624670637751956027694120960 4751 .leaf) 4886897920367771131663188669398912476381184 3075 (.node .leaf 4886898117999570309645065280340929007321088 3076 .leaf)) 4886898120659735094224004679381760683802624 3077 (.node (.node (.node .leaf 4886898450376290038886586123375012753702912 3078 .leaf) 4886898450955606363190886959859006118559744 3079 .leaf) 4886898456538339606596009244050487035035648 3080 (.node .leaf 4886898620678809926548065067449604879941632 3081 .leaf))) 4886899114949723112137219234430648391303168 3082 (.node (.node (.node (.node .leaf 4886899114982815725267396019939251780059136 3083 .leaf) 4886899114985851154243723772373304432656384 3084 .leaf) 4886899117516715577599383772461472382189568 3085 (.node .leaf 4886899117589749088157064067159421114908672 3086 .leaf)) 4886899118876404543868402626636375675371520 3087 (.node (.node .leaf 4886899118878806147544616264369679976366080 3088 .leaf) 4886899119139308345891517406377252485070848 3089 (.node .leaf 4886899119463826899549944133160408505647104 3090 .leaf))))))
def t83 : KT := (.node t81 4844787676702383483702380078318564122034176 4744 t82)
def t84 : KT := (.node t80 4844446735566601570433346022108900693639168 2953 t83)
def t85 : KT := (.node (.node (.node (.node (.node (.node (.node .leaf 4886899121410938221500504493859344629104640 3092 .leaf) 4886899121735456775158931220642500649680896 3093 .leaf) 4886899415749266389693545686181855291768832 3094 (.node .leaf 4886899448595361092207197708362932046266368 3095 .leaf)) 4886899449901041210442273991904536347803648 3096 (.node (.node (.node .leaf 4886965212535057743029254424631339168825344 3097 .leaf) 4887050283126787977645120268283197110878208 3098 .leaf) 4887142996779493975527255308825651664912384 3099 (.node .leaf 4887151507669633877938573967454024216084480 3100 .leaf))) 4887152170989360507563488200429420383567872 3101 (.node (.node (.node (.node .leaf 4887152172217080113884528375778977437974528 3102 .leaf) 4887152172570754631348204378796557632274432 3103 .leaf) 4887152831963299701466063925935167269502976 3104 (.node .leaf 4887152832612336808782917379501479310655488 3105 .leaf)) 4887152834945584192378085135380368995647488 4752 (.node (.node (.node .leaf 4887152834945591584260561839373064832286720 4753 .leaf) 4887152835598287797620511734726963710918656 3106 .leaf) 4887152837229250278518253824681336792678400 3107 (.node .leaf 4887152839427226435609878641947755742756864 3108 .leaf)))) 4887153298296461308625270313330368837582848 3109 (.node (.node (.node (.node (.node .leaf 4887153828559777986494541877007306459185152 3110 .leaf) 4887153832518016985707188183180762217971712 3111 .leaf) 4887153832520552286907644641983755624382464 3112 (.node .leaf 4887153833752074845029369505537802788405248 3113 .leaf)) 4887154461370957620426659104161546582884352 3114 (.node (.node (.node .leaf 4887154627524457093541143217137429117927424 3115 .leaf) 4887154793677956566655627330113311652970496 3116 .leaf) 4887155458291954459113563782016841793142784 3117 (.node .leaf 4887236541199697338981810914247518894161920 3118 .leaf))) 4887236576896738241408750860394681157550080 3119 (.node (.node (.node (.node .leaf 4887236905048378520089583108240253120413696 4754 .leaf) 4887236907645160774657111037206249636626432 3120 .leaf) 4887236912773441277880413080961162453975040 3121 (.node .leaf 4887237039660195758325263253175166499291136 3122 .leaf)) 4887237071138495463192655751141300495187968 3123 (.node (.node .leaf 4887237072436569677826362658273924577492992 3124 .leaf) 4887237073734643892460069565406548659798016 3125 (.node .leaf 4887237237941032043623993317683495071383552 3126 .leaf))))) 4887237241510736133866687312298211297722368 3127 (.node (.node (.node (.node (.node (.node .leaf 4887237575177428998124831533945979257487360 3128 .leaf) 4887238404909750999326502829912545063600128 3129 .leaf) 4887238701195190489470104382933991849721856 3130 (.node .leaf 4887238716123043957757733814959168796229632 3131 .leaf)) 4887238733647045855312777061249593907347456 3132 (.node (.node (.node .leaf 4887238737216749945555471055864310133686272 3133 .leaf) 4887238867348689962584588495909874384764928 3134 .leaf) 4887238903045730865011528442057036648153088 3135 (.node .leaf 4887239731866116908633388646237513199910912 3136 .leaf))) 4887239731927597962744457772210103305371648 3137 (.node (.node (.node (.node .leaf 4887239736084858106192936094418541467402240 3138 .leaf) 4887390565493708916108583642890628879089664 3139 .leaf) 4887475636085439150724449486542486821142528 3140 (.node .leaf 4887491788671928945256348391350254983708672 3141 .leaf)) 4887491790368045448361719330552843872501760 3142 (.node (.node .leaf 4887493113681183532612673846976286996561920 3143 .leaf) 4887493114391823012164446393782129257349120 4755 (.node .leaf 4887493115051513831459389829994223161573376 3144 .leaf)))) 4887493115628294854563234207675223120019456 3145 (.node (.node (.node (.node (.node .leaf 4887493117899924730172221295157315264053248 3146 .leaf) 4887493117961546909447768954481243869675520 4756 .leaf) 4887494113198328800566992339096830371430400 3147 (.node .leaf 4887495111417399853887603924084749663993856 3148 .leaf)) 4887495111479514733298787164758088121057280 3149 (.node (.node (.node .leaf 4887560706677169385340315330194344763195392 3150 .leaf) 4887645777268899619956181173846202705248256 3151 .leaf) 4887747297057077692905974202110431616565248 3152 (.node .leaf 4887747478138430634308087747111491098116096 3153 .leaf))) 4887747664736598987903455647426202929463296 3154 (.node (.node (.node (.node .leaf 4887747667008228863512442734908295073497088 3155 .leaf) 4887747961671075585363910654013961756737536 3156 .leaf) 4887748329675115434019818826112889090211840 3157 (.node .leaf 4887748329737984218914926863373641113927680 4757 .leaf)) 4887748329748639168833056131399697876123648 3158 (.node (.node .leaf 4887748825244102834242679900226556683878400 4758 .leaf) 4887748831769334298917490744430836433551360 4759 (.node .leaf 4887748831776435391884847747547086448492544 4760 .leaf))))))
def t86 : KT := (.node (.node (.node (.node (.node (.node (.node .leaf 4887749158820020031300105757076521662545920 3160 .leaf) 4887749457052570843394267670796904572125184 3161 .leaf) 4887749789359569789623235896748669642211328 3162 (.node .leaf 4887749828626314782292869837510548131938304 3163 .leaf)) 4887749955513069262737720009724552177254400 3164 (.node (.node (.node .leaf 4887749992832702933456793589787494543523840 3165 .leaf) 4887750121666568735852204122700434712297472 3166 .leaf) 4887750153144868440719596620666568708194304 3167 (.node .leaf 4887750323517109111393628181823479510728704 3168 .leaf))) 4887815918452360089187912861149918589353984 3169 (.node (.node (.node (.node .leaf 4887832072398405152464587799062900939685888 3170 .leaf) 4887832699955806873750808271714054628704256 3171 .leaf) 4887832732407662239593480950029656686329856 3172 (.node .leaf 4887832735003810668860894764294904850939904 3173 .leaf)) 4887832735652847776177748217861216892092416 3174 (.node (.node (.node .leaf 4887832736950921990811455124993840974397440 3175 .leaf) 4887832737599959098128308578560153015549952 3176 .leaf) 4887834398877130777374277691381380852744192 3177 (.node .leaf 4887986059635820558419644548453634473459712 3178 .leaf)))) 4888002215856030798505763032651702374236160 3179 (.node (.node (.node (.node (.node .leaf 4888002873333155811678767954128793468141568 3180 .leaf) 4888002873336958763479452642333283577757696 3181 .leaf) 4888002873984728220196077866498098915704832 3182 (.node .leaf 4888002874301763426317024469519489730347008 3183 .leaf)) 4888002876248752192203695577571210840506368 3184 (.node (.node (.node .leaf 4888002876573393301926011557001581874380800 4761 .leaf) 4888002876900469439705601879432679485603840 4762 .leaf) 4888002878134382460043186812297556858503168 3185 (.node .leaf 4888002878522917369013139123856296390950912 3186 .leaf))) 4888002878530023398713059325706344052293632 4763 (.node (.node (.node (.node .leaf 4888002878531790923214736729666773313388544 3187 .leaf) 4888002878847572096075887242469691315191808 3188 .leaf) 4888002879432456674676893719430180940808192 3189 (.node .leaf 4888003538529639154941575816020058731184128 3190 .leaf)) 4888003541523829872680653662355271702282240 3191 (.node (.node .leaf 4888003543072898906159549990984243019251712 3192 .leaf) 4888003543143253514472216722767310047150080 3193 (.node .leaf 4888004534863079940422696166281632005750784 3194 .leaf))))) 4888004534865757882780608955180948993867776 4764 (.node (.node (.node (.node (.node (.node .leaf 4888004534868294436645443392951771075706880 4765 .leaf) 4888004535841849804843446368348975178711040 3195 .leaf) 4888004536163689456256859532217249494466560 4766 (.node .leaf 4888004537722265869237467581357446085476352 3196 .leaf)) 4888004540057912100157980253615121741381632 3197 (.node (.node (.node .leaf 4888004540318414298504881395622694250086400 3198 .leaf) 4888071130227550793035510392105492415512576 3199 .leaf) 4888087911730997577598405802669628454862848 3200 (.node .leaf 4888087949763050885645744306373718022553600 4767 .leaf))) 4888087949763188538775268906510066766577664 4768 (.node (.node (.node (.node .leaf 4888087949763188543610972184968583465402368 4769 .leaf) 4888088410191495996941858141597276059992064 3201 .leaf) 4888088608147813728582161479322448611508224 3202 (.node .leaf 4888156200819281027651376235757350357565440 3203 .leaf)) 4888172349511548178282154419167246273216512 3204 (.node (.node .leaf 4888172982322727812214271646321486396915712 3205 .leaf) 4888173480783226231557723985249134002044928 3206 (.node .leaf 4888173682309248053440721317589022779899904 3207 .leaf)))) 4888174679291869547283252225528796394029056 4770 (.node (.node (.node (.node (.node .leaf 4888175178408233551200256175619099609530368 4771 .leaf) 4888175677773834499106664307215393303298048 3208 .leaf) 4888175973085718328274985679887372027691008 3209 (.node .leaf 4888257554453959627486685151045696733839360 3210 .leaf)) 4888257587303346012564796999377730259648512 4772 (.node (.node (.node .leaf 4888258052914458046830137489973344338968576 3211 .leaf) 4888258219067957519944621602949226874011648 3212 .leaf) 4888259248116291170815772232336968121319424 3213 (.node .leaf 4888259382142453831746010393780404619313152 3214 .leaf))) 4888259548295953304860494506756287154356224 3215 (.node (.node (.node (.node .leaf 4888260249905066314379077811939603640221696 3216 .leaf) 4888260379063450670432915071635699829571584 3217 .leaf) 4888260545216950143547399184611582364614656 3218 (.node .leaf 4888260577993324063048498589710340442816512 3219 .leaf)) 4888260578065580147261507665595652525522944 3220 (.node (.node .leaf 4888260582212065260608046037891368710307840 3221 .leaf) 4888260582925242517240353614260754175754240 3222 (.node .leaf 4888260582927790197841202926866496573407232 3223 .leaf))))))
def t87 : KT := (.node t85 4887748831778841678419202464942061707591680 3159 t86)
def t88 : KT := (.node (.node (.node (.node (.node (.node (.node .leaf 4931797414376891385590554029160474630684672 3225 .leaf) 4931813565410653040090444583401762955722752 4773 .leaf) 4931813568652525604926568611462599814414336 4774 (.node .leaf 4931813568652666730091047144813938314575872 4775 .leaf)) 4931813568652667968031086430194213213700096 4776 (.node (.node (.node .leaf 4931813569559529609389866748233490957860864 3226 .leaf) 4931814210808191638441078871749787616542720 3227 .leaf) 4931814232875453287214096293004397015728128 3228 (.node .leaf 4931814233524490394530949746570709056880640 3229 .leaf))) 4931814896265026010391541623364596053049344 4777 (.node (.node (.node (.node .leaf 4931814898849147573581287311364479843827712 4778 .leaf) 4973668428551115181815992177511070554914816 3230 .leaf) 4973668462625563315950798489742452715421696 3231 (.node .leaf 4973668464641257993385120486747651811835904 4779 .leaf)) 4973668464641265435532466034404851303055360 4780 (.node (.node (.node .leaf 4973668628518560590718381460710762741760000 3232 .leaf) 4973668628528701795520207295922736367403008 4781 .leaf) 4973668629752618450040562783067803312193536 3233 (.node .leaf 4973668794997846268091520529871298000584704 4782 .leaf)))) 4973668795003044378316479841645599423201280 4783 (.node (.node (.node (.node (.node .leaf 4973669126332557203945436804875091712147456 3234 .leaf) 4973669130809265298651428936260699081932800 3235 .leaf) 4973669591625611493617380968342248300216320 3236 (.node .leaf 4973670126107669369046199980200214189309952 3237 .leaf)) 4973670289085704088588969442426855194886144 4784 (.node (.node (.node .leaf 4973670289089507040389654130631345304502272 3238 .leaf) 4973670289089648420004683493964907209031680 4785 .leaf) 4973670290314057520210123732477160600895488 3239 (.node .leaf 4973670292335326402274035513163653861867520 4786 .leaf))) 4973670455239837387003567670103486081531904 3240 (.node (.node (.node (.node .leaf 4973670455882536241319279976662314606657536 3241 .leaf) 4973670456204661856881768063374090620108800 4787 .leaf) 4973670456467556993324607845453043135938560 3242 (.node .leaf 4973670458414668315275168206151979259396096 3243 .leaf)) 4973670625541723449364932499477329856167936 4788 (.node (.node .leaf 4973670787548737809132878240157496206426112 3244 .leaf) 4973670788526730247208957223412202729373696 3245 (.node .leaf 4973671119134443563831983936657637152653312 3246 .leaf))))) 4973671119783480671148837390223949193805824 3247 (.node (.node (.node (.node (.node (.node .leaf 4973671119848130851760477089700281057280000 3248 .leaf) 4973671121150008018194868685037395249201152 3249 .leaf) 4973671253160606224762222098101073650647040 3250 (.node .leaf 4973671453459044613728500646921644277760000 3251 .leaf)) 4973671623111757395368690630898937107578880 3252 (.node (.node (.node .leaf 4973671783165956005485048978573432169955328 3253 .leaf) 4973671784465931696019098229808301307068416 3254 .leaf) 4973672450373567026009942785939217068326912 3255 (.node .leaf 4973737216099897051212414949526440062746624 3256 .leaf))) 4973753364792164201843193132936335978397696 3257 (.node (.node (.node (.node .leaf 4973753366414756970135326766852116081278976 3258 .leaf) 4973754662217341728233246811994106242269184 3259 .leaf) 4973754695318234201392772943876020341047296 3260 (.node .leaf 4973754697914382630660186758141268505657344 3261 .leaf)) 4973754697978398985971712342916852017528832 3262 (.node (.node .leaf 4973754697979723581813747699810994080448512 3263 .leaf) 4973754697979791668515908395726113532280832 4789 (.node .leaf 4973755659138338566920151489849401452527616 3264 .leaf)))) 4973822286691627285828280793178298004799488 3265 (.node (.node (.node (.node (.node .leaf 4973839068195074070391176203742434044149760 3266 .leaf) 4973839103892114972818116149889596307537920 3267 .leaf) 4973839598133872194602021040636215645175808 3268 (.node .leaf 4973839599504202493448737023654151810187264 3269 .leaf)) 4973839764611890221374931880395254200795136 3270 (.node (.node (.node .leaf 4973839770453224187226612962492062571167744 3271 .leaf) 4973841762023587988991435230720560847650816 3272 .leaf) 4973923509220810207659192088071612068265984 3273 (.node .leaf 4973924803400802197464978499297822126374912 3274 .leaf))) 4973924834879101902332370997263956122271744 3275 (.node (.node (.node (.node .leaf 4973924836249432201179086980281892287283200 3276 .leaf) 4973924839097843099891918445444984389763072 3277 .leaf) 4973924839163127105803672259622064604839936 3278 (.node .leaf 4974000070936063518326281677372610500886528 3279 .leaf)) 4974008579812540442275057931723470010318848 3280 (.node (.node .leaf 4974008580461577549591911385289782051471360 3281 .leaf) 4974008581831907848438627368307718216482816 3282 (.node .leaf 4974008583057725978859325199555030216081408 3283 .leaf))))))
def t89 : KT := (.node (.node (.node (.node (.node (.node (.node .leaf 4974008747974775892495728635482767072690176 3285 .leaf) 4974008911217113286306005357160920898338816 4790 .leaf) 4974008913161681879415873546775214220640256 3286 (.node .leaf 4974008913162320900679160365152155459387392 3287 .leaf)) 4974008914130667065766112103149754715734016 3288 (.node (.node (.node .leaf 4974008914777305294325549330356922243612672 4791 .leaf) 4974009043225035066508423778070267393212416 3289 .leaf) 4974009076001408986009523183169025471414272 3290 (.node .leaf 4974009077372373110156353280887709988028416 3291 .leaf))) 4974009077373006935456467395588458339631104 3292 (.node (.node (.node (.node .leaf 4974009407073082422316081857362253267861504 3293 .leaf) 4974009408308407932238491409120790541500416 3294 .leaf) 4974009408380720961693307612498747983921152 3295 (.node .leaf 4974009409606482146872198316253414623805440 3296 .leaf)) 4974009414798779005407025944783910953025536 3297 (.node (.node (.node .leaf 4974009575832871529499805619815357593157632 3298 .leaf) 4974009911636684656458344649795778455273472 3299 .leaf) 4974010406527478985559102994108709834063872 3300 (.node .leaf 4974010410421701629460223715506582080978944 3301 .leaf)))) 4974010742465663076141834340647781235949568 3302 (.node (.node (.node (.node (.node .leaf 4974010742468198377342290799450774642360320 3303 .leaf) 4974010870913529270767749020804975278686208 3304 .leaf) 4974011071211197661029592063094558650531840 3305 (.node .leaf 4974011073161608093184847962226100940046336 3306 .leaf)) 4974011075035699521918160167410112221151232 3307 (.node (.node (.node .leaf 4974011369374027690111201359732622883815424 3308 .leaf) 4974011403448475824246007671964005044322304 3309 .leaf) 4974011405395587146196568032662941167779840 3310 (.node .leaf 4974011407342698468147128393361877291237376 3311 .leaf))) 4974011550455380631513314904733682365366272 3312 (.node (.node (.node (.node .leaf 4974011571940156829481460916000556641681408 3313 .leaf) 4974011572913833808580591063616964817584128 3314 .leaf) 4974011573171679387603185779554603805704192 3315 (.node .leaf 4974011573233294139238497726596883016581120 3316 .leaf)) 4974011573243935471816194855439915888410624 3317 (.node (.node .leaf 4974011734529656640054278066668458114809856 3318 .leaf) 4974011735832801457088897891407069009936384 3319 (.node .leaf 4974011738742693409912798482542751217876992 3320 .leaf))))) 4974011738742815010925290239632918213296128 4792 (.node (.node (.node (.node (.node (.node .leaf 4974011867834526109454653698660270488944640 3321 .leaf) 4974011905545229990344136049084945794072576 3322 .leaf) 4974012033988025582569137811636153023987712 3323 (.node .leaf 4974012065534778419848854697283108992974848 3324 .leaf)) 4974012066832852634482561604415733075279872 3325 (.node (.node (.node .leaf 4974012066836712531525053420112868544610304 3326 .leaf) 4974012066836797949387764111351836584181760 3327 .leaf) 4974012066836799187327803396732111483305984 3328 (.node .leaf 4974012068130926849116268511548357157584896 3329 .leaf))) 4974012070078183010051425261739456478576640 3330 (.node (.node (.node (.node .leaf 4974012233891454636160001510060261698961408 3331 .leaf) 4974077498466817989675878324133871830958080 3332 .leaf) 4974096938426256344070519542312128430997504 3333 (.node .leaf 4974097603040254236528455994215658571169792 3334 .leaf)) 4974162569058548224291744167785729773010944 3335 (.node (.node .leaf 4974179387557110125915286431629652158054400 3336 .leaf) 4974179388206147233232139885195964199206912 3337 (.node .leaf 4974180047303329713496821981785841989582848 3338 .leaf)))) 4974180050873033803739515976400558215921664 3339 (.node (.node (.node (.node (.node .leaf 4974180050938317809651269790577638430998528 3340 .leaf) 4974180052495626572031649610316338318802944 3341 .leaf) 4974180052820145125690076337099494339379200 3342 (.node .leaf 4974180513636491320656028369181043557662720 3343 .leaf)) 4974181047794030642426420654255853426180096 3344 (.node (.node (.node .leaf 4974182009017986578686385385963986373050368 3345 .leaf) 4974247639650278458907610011437587715063808 3346 .leaf) 4974255282711254222173879208328184327045120 3347 (.node .leaf 4974263791587731146122655462679043836477440 3348 .leaf))) 4974348827131457585628434813750051556294656 3349 (.node (.node (.node (.node .leaf 4974348858934275844154254038499341572767744 3350 .leaf) 4974348860556868612446387672415121675649024 3351 .leaf) 4974348862208617344543770582565325952253952 4793 (.node .leaf 4974348993284957058742918926725934091337728 3352 .leaf)) 4974349024763256763610311424692068087234560 3353 (.node (.node .leaf 4974349190989646146237918728254011056586752 3354 .leaf) 4974349192214830451358502444800574704582656 3355 (.node .leaf 4974349193512904665992209351933198786887680 3356 .leaf))))))
def t90 : KT := (.node t88 4974008583382244532517751926338186236657664 3284 t89)
def t91 : KT := (.node t87 4888411412594471731498973766712924183724032 3224 t90)
def t92 : KT := (.node t84 4886899121152971324354059810654765526810624 3091 t91)
def t93 : KT := (.node t77 4843510921664354638884703729096066819162112 2808 t92)
def t94 : KT := (.node (.node (.node (.node (.node (.node (.node .leaf 4974349193576921021303734936708782298759168 3358 .leaf) 4974349195460015987942769712632134910345216 3359 .leaf) 4974349358440586008685995633661769322332160 3360 (.node .leaf 4974349527505245085224608567174830768521216 3361 .leaf)) 4974349527516020115326548517087552745766912 3362 (.node (.node (.node .leaf 4974349528740570595147018118933368042160128 3363 .leaf) 4974349529389607702463871572499680083312640 3364 .leaf) 4974349855600474912195284606653799438745600 3365 (.node .leaf 4974349858126902558450145803836728927059968 3366 .leaf))) 4974350688971726610636488362207440497803264 3367 (.node (.node (.node (.node .leaf 4974350852521471750882189284509094649004032 3368 .leaf) 4974350855047899397137050481692024137318400 3369 .leaf) 4974350856995010719087610842390960260775936 3370 (.node .leaf 4974350857383545628057563153949699793223680 3371 .leaf)) 4974351018605250440984120780402658507751424 3372 (.node (.node (.node .leaf 4974351018634406404789370056637082681475072 3373 .leaf) 4974351019578806101959400960752126569480192 3374 .leaf) 4974351019903324655617827687535282590056448 3375 (.node .leaf 4974351020552361762934681141101594631208960 3376 .leaf)))) 4974351153280450209231212395412407046897664 3377 (.node (.node (.node (.node (.node .leaf 4974351353183879262822076093836515721871360 3378 .leaf) 4974351353247895618133601678612099233742848 3379 .leaf) 4974351354481953477455783000969139804176384 3380 (.node .leaf 4974351354548627690031654297194931735756800 3381 .leaf)) 4974351485587449155460180621364172116983808 3382 (.node (.node (.node .leaf 4974351817894448101689148847315937187069952 3383 .leaf) 4974351832822301569976778279341114133577728 3384 .leaf) 4974351850021784913873394798848383224119296 3385 (.node .leaf 4974351851644377682165528432764163327000576 3386 .leaf))) 4974351854240526111432942247029411491610624 3387 (.node (.node (.node (.node .leaf 4974352015588362159082208698931292175073280 3388 .leaf) 4974352016887760969557950962958058320297984 3389 .leaf) 4974352016896634523759548568768535242735616 3390 (.node .leaf 4974352016896719941622259260007503282307072 3391 .leaf)) 4974352018185144413649736627897288691286016 3392 (.node (.node .leaf 4974352022016618352839559993921074129534976 3393 .leaf) 4974352022088874437052569069806386212241408 3394 (.node .leaf 4974352349199773572946024979023164843491328 3395 .leaf))))) 4974352349204844175346937896629151656312832 3396 (.node (.node (.node (.node (.node (.node .leaf 4974352350429394655167407498474966952706048 3397 .leaf) 4974352352444959109530292246854725049253888 4794 .leaf) 4974417780833738928139341698741303599169536 3398 (.node .leaf 4974510494486444926021476739283758153203712 4795 .leaf)) 4974519670573068171695603259803395967418368 3399 (.node (.node (.node .leaf 4974520167410973822746921964815263469666304 4796 .leaf) 4974520828779786178620591148887233404076032 3400 .leaf) 4974520830147581176266850673102176162676736 3401 (.node .leaf 4974521824476866362787140339597461669543936 4797 .leaf))) 4974521974005762039208509966644830017683456 4798 (.node (.node (.node (.node .leaf 4974587922017199397371073386045019483275264 3402 .leaf) 4974604703520646181933968796609155522625536 3403 .leaf) 4974604735972501547776641474924757580251136 3404 (.node .leaf 4974604740265400305449540343093342985256960 4799 .leaf)) 4974605401560055101209858107177755782152192 3405 (.node (.node (.node .leaf 4974605405454277745110978828575628029067264 3406 .leaf) 4974605405520195576322846757453456595746816 3407 .leaf) 4974606365055640913078809926367980873056256 3408 (.node .leaf 4974672992608929631986939229696877425328128 3409 .leaf)))) 4974689141625715336276144139889929361555456 3410 (.node (.node (.node (.node (.node .leaf 4974689774112376416549834640261013464678400 3411 .leaf) 4974689809809417318976774586408175728066560 3412 .leaf) 4974689811180381443123604684126860244680704 3413 (.node .leaf 4974690474488699217346464852488786083315712 3414 .leaf)) 4974690474488756162588271979981431443030016 3415 (.node (.node (.node .leaf 4974690474747933765093137765094861888815104 3416 .leaf) 4974690476370526533385271399010641991696384 3417 .leaf) 4974693097182365878839516899778664165539840 3418 (.node .leaf 4974774217085223875768410885289127612252160 3419 .leaf))) 4974774879752110446275786976493721628966912 3420 (.node (.node (.node (.node .leaf 4974774881699221768226347337192657752424448 3421 .leaf) 4974774882348258875543200790758969793576960 3422 .leaf) 4974774883970851643835334424674749896458240 3423 (.node .leaf 4974775541445441355807882887348847583952896 3424 .leaf)) 4974775546637738214342710515879343913172992 3425 (.node (.node .leaf 4974775546962256768001137242662499933749248 3426 .leaf) 4974775547611293875317990696228811974901760 3427 (.node .leaf 4974776506239101382310541613671696757161984 3428 .leaf))))))
def t95 : KT := (.node (.node (.node (.node (.node (.node (.node .leaf 4974777503160098220997446291526991967420416 3430 .leaf) 4974859451883342261548200481217931965890560 3431 .leaf) 4974859452930421657336717966854208813531136 4800 (.node .leaf 4974859582988837939552598101612964278697984 3432 .leaf)) 4974859619983953056613244954892750624391168 3433 (.node (.node (.node .leaf 4974859915295836885781566327564729348784128 3434 .leaf) 4974859950405464098107239764849783075766272 4801 .leaf) 4974859951708590590244285871039363774676992 4802 (.node .leaf 4974860114225710278397149845639369962029056 3435 .leaf))) 4974860115592237625443181140452816017424384 3436 (.node (.node (.node (.node .leaf 4974860912216833724468471005420024559042560 3437 .leaf) 4974860945065463728182579486404094719950848 3438 .leaf) 4974861111175863080889303799729089346011136 3439 (.node .leaf 4974861277373225245475747506605197650558976 4803 .leaf)) 4974861277373855356955743765165121304788992 3440 (.node (.node (.node .leaf 4974861278598280804832245543603171789635584 3441 .leaf) 4974861280869910680441232631085263933669376 3442 .leaf) 4974861442224084981091640229994628133158912 3443 (.node .leaf 4974861443453706063313022749446430242373632 3444 .leaf)))) 4974861444824670187459852847165114758987776 3445 (.node (.node (.node (.node (.node .leaf 4974861448382965422300492777166360656478208 3446 .leaf) 4974861612203353965694920676687560942026752 3447 .leaf) 4974861614474983841303907764169653086060544 3448 (.node .leaf 4974861775829158141954315363079017285550080 3449 .leaf)) 4974861777121527928886995237904906203430912 3450 (.node (.node (.node .leaf 4974862109365778170404666108482584464850944 3451 .leaf) 4974862111312889492355226469181520588308480 3452 .leaf) 4974862277855064999604141427067481155960832 3453 (.node .leaf 4974862278764463180103417489290027205656576 3454 .leaf))) 4974862441412274918286733192426777026232320 3455 (.node (.node (.node (.node .leaf 4974862444663934881276462999096059651686400 4804 .leaf) 4974862446865073975168461962964845864157184 3456 .leaf) 4974862771383627633595188746120866440413184 3457 (.node .leaf 4974862772750154980641220040934312495808512 3458 .leaf)) 4974863072212326874956764474106497514602496 3459 (.node (.node .leaf 4974928204384120335834536760652451251486720 3460 .leaf) 4974944359310823122091872105551997939220480 4805 (.node .leaf 4974945017365866825264824669182721286733824 3461 .leaf))))) 4974945021658131757637609422650558340136960 3462 (.node (.node (.node (.node (.node (.node .leaf 4974945022911838201263328300730797810253824 3463 .leaf) 4974945023531719344774932478062685677682688 3464 .leaf) 4974945484348065539740884510144234895966208 3465 (.node .leaf 4974945686263889921194062383444359909474304 3466 .leaf)) 4974946647422561851542273300975412641267712 3467 (.node (.node (.node .leaf 4975098345567580805066268447956167135592448 3468 .leaf) 4975115159198364401813409810052749211992064 3469 .leaf) 4975115160171920062788689990402217273720832 3470 (.node .leaf 4975115163092587045714530531450621458907136 3471 .leaf))) 4975115164464184995161474743870054327123968 3472 (.node (.node (.node (.node .leaf 4975115827706584938172466983354151599079424 3473 .leaf) 4975115829978214813781454070836243743113216 3474 .leaf) 4975116824303063223200944934426290788761600 3475 (.node .leaf 4975116825925655991493078568342070891642880 3476 .leaf)) 4975118487460650722637919698100896242073600 3477 (.node (.node .leaf 4975183416159311039682134291608025077645312 3478 .leaf) 4975199533048759931787093250268630976823296 3479 (.node .leaf 4975199570759463812676575600693306281951232 3480 .leaf)))) 4975199865355758878016061476220396046909440 3481 (.node (.node (.node (.node (.node .leaf 4975200197662757824245029702172161116995584 3482 .leaf) 4975200229790094636429275653704607154044928 3483 .leaf) 4975200229862350720642284729589919236751360 3484 (.node .leaf 4975200234687028905110925831686371636412416 3485 .leaf)) 4975200234719478043295096338524154168868864 4806 (.node (.node (.node .leaf 4975200234982391494964103282235103483265024 3486 .leaf) 4975200235955947155939383462584571544993792 3487 .leaf) 4975200696123256243588482041099808722124800 3488 (.node .leaf 4975200727601555948455874539065942718021632 3489 .leaf))) 4975200862276755716702966154075691257167872 3490 (.node (.node (.node (.node .leaf 4975200894079573975228785378824981273640960 3491 .leaf) 4975201894894793457816810778078148730814464 3492 .leaf) 4975202025351252028504354944906869002469376 3493 (.node .leaf 4975203188425748340305743735738046747770880 3494 .leaf)) 4975284635833744809799072974330763522605056 3495 (.node (.node .leaf 4975284637065901193220911952585559038230528 3496 .leaf) 4975285300057306317386714770573309075521536 3497 (.node .leaf 4975285304014911491299246962046016482705408 3498 .leaf))))))
def t96 : KT := (.node t94 4974776544207772160346468647300951164583936 3429 t95)
def t97 : KT := (.node (.node (.node (.node (.node (.node (.node .leaf 4975285802810703494403065977669542085656576 4807 .leaf) 4975285932868485951318831997727549199220736 3500 .leaf) 4975285964671304209844651222476839215693824 3501 (.node .leaf 4975285965320341317161504676043151256846336 3502 .leaf)) 4975285965717115955032940478711619360129024 3503 (.node (.node (.node .leaf 4975285966293896978136784856392619318575104 3504 .leaf) 4975285967983041402940900533886976339738624 3505 .leaf) 4975285967984942878841242877989221394546688 3506 (.node .leaf 4975285967993182607742726369098949965381632 3507 .leaf))) 4975285970261643356851142883077300351401984 3508 (.node (.node (.node (.node .leaf 4975285971161675283013185758139959627218944 3509 .leaf) 4975287461100512688963639839596807230324736 4808 .leaf) 4975287462324429343483995326741874175115264 3510 (.node .leaf 4975287464342657844811422213473215186993152 3511 .leaf)) 4975287628153410262940052712934600689582080 3512 (.node (.node (.node .leaf 4975369674232220401018824937572346860929024 3513 .leaf) 4975370373894222088586847882056727223336960 3514 .leaf) 4975370374543259195903701335623039264489472 3515 (.node .leaf 4975370706201221034815816108008492293423104 3516 .leaf)))) 4975371039157257088361637787526569404661760 3517 (.node (.node (.node (.node (.node .leaf 4975371704488745220548752080677233559076864 3518 .leaf) 4975371834227713551507118406258819816488960 3519 .leaf) 4975371868951198792958778172056514018148352 3520 (.node .leaf 4975371871948558637198426591895468747259904 3521 .leaf)) 4975372697122547729263784922670678528753664 3522 (.node (.node (.node .leaf 4975372865292879307341382013427815863549952 3523 .leaf) 4975455409437948528092627233127734943154176 3524 .leaf) 4975455443580849794639757933039939076751360 4809 (.node .leaf 4975455444552503979714695769287162083672064 3525 .leaf))) 4975455445134989430519567179274897206542336 3526 (.node (.node (.node (.node .leaf 4975455446462219608958523362641945462571008 3527 .leaf) 4975455446831105933624938118477486095335424 3528 .leaf) 4975455448704693520762261173889613432881152 3529 (.node .leaf 4975456106179283232734809636563711120375808 3530 .leaf)) 4975456112345135752244917445443675511324672 3531 (.node (.node .leaf 4975457070972943259237468362886560293584896 3532 .leaf) 4975523698526231978145597666215456845856768 3533 (.node .leaf 4975710288906140285711256538131543699226624 3534 .leaf))))) 4975712150084061872100060224306905215926272 3535 (.node (.node (.node (.node (.node (.node .leaf 4975713113515631328657486458721546794958848 3536 .leaf) 4975798050081198902343114140929968239017984 4810 .leaf) 5017208288474046939919861055625848451760128 3537 (.node .leaf 5017224571516995305139304127262336885981184 3538 .leaf)) 5017224772393980019705448006035913622683648 3539 (.node (.node (.node .leaf 5017224774732161551826417137096582684999680 3540 .leaf) 5017224775314647002631288547084317807869952 3541 .leaf) 5017225734591491616940692918093514631282688 3542 (.node .leaf 5017226264602545825364546830872608315015168 3543 .leaf))) 5017226265901376421362257105353195762221056 4811 (.node (.node (.node (.node .leaf 5017226265901401180163042812958693744705536 4812 .leaf) 5017226268424512385052658476385168479223808 3544 .leaf) 5017226269073549492369511929951480520376320 3545 (.node .leaf 5017226270696142260661645563867260623257600 3546 .leaf)) 5017226597486325794697359434505373343547392 3547 (.node (.node .leaf 5017226597874860703667311746064112875995136 3548 .leaf) 5017226897665987928742081708924692376584192 3549 (.node .leaf 5017226929216673962654585284464904599764992 4813 .leaf)))) 5017227593758285526067410658794356512653312 3550 (.node (.node (.node (.node (.node .leaf 5017227596424788563647491204842671705161728 3551 .leaf) 5017227600248656599235945194457476924178432 3552 .leaf) 5017227728433485294314502273804105051799552 3553 (.node .leaf 5017227930680800307727362135595617953513472 3554 .leaf)) 5017228060740484240543470499755870121885696 3555 (.node (.node (.node .leaf 5017293359065777174535726899277706393812992 3556 .leaf) 5017394582317520938496728953024141284343808 3557 .leaf) 5017394582893034311000345101303644539584512 3558 (.node .leaf 5017394582957191791476349219430566551617536 4814 .leaf))) 5017394584261596831470961561289024755204096 4815 (.node (.node (.node (.node .leaf 5017394584840145632950905462002580663042048 3559 .leaf) 5017395243612809559557160831809302432841728 3560 .leaf) 5017395245235402327849294465725082535723008 3561 (.node .leaf 5017395248480587864433561733556642741485568 3562 .leaf)) 5017395709621452613057940492421347980345344 3563 (.node (.node .leaf 5017395743769575510690776926333076619919360 4816 .leaf) 5017395745643012069143307165351666264309760 3564 (.node .leaf 5017395746687046386830015055019274970071040 4817 .leaf))))))
def t98 : KT := (.node (.node (.node (.node (.node (.node (.node .leaf 5017395911535375518610776021619227939045376 3566 .leaf) 5017395913817290200066146048425182007132160 4818 .leaf) 5017396407011824425016976349423636198719488 3567 (.node .leaf 5017396408309898639650683256556260281024512 3568 .leaf)) 5017396905796841398018855415134439824424960 3569 (.node (.node (.node .leaf 5017396909118719795916930561756550574112768 3570 .leaf) 5017396910736995867292076074653757430824960 3571 .leaf) 5017397402705860790479238520385343030558720 4819 (.node .leaf 5017397869616945763546233961107820935905280 3572 .leaf))) 5017398571941013711593538648735278029602816 4820 (.node (.node (.node (.node .leaf 5017463500249237643767458586581422277918720 3573 .leaf) 5017556213901943641649593627123876831952896 3574 .leaf) 5017564687730416770488283388893886119149568 3575 (.node .leaf 5017564725050050441207356968956828485419008 3576 .leaf)) 5017564726348124655841063876089452567724032 3577 (.node (.node (.node .leaf 5017565056058975172802618287775969473200128 3578 .leaf) 5017565057681567941094751921691749576081408 3579 .leaf) 5017565186190915189831735727821533724278784 3580 (.node .leaf 5017565218967289109332835132920291802480640 3581 .leaf)))) 5017565221238918984941822220402383946514432 3582 (.node (.node (.node (.node (.node .leaf 5017565684651413609175188066749181329408000 3583 .leaf) 5017565721646528726235834920028967675101184 3584 .leaf) 5017566016958412555404156292700946399494144 3585 (.node .leaf 5017566548195284894248708036727352082825216 3586 .leaf)) 5017566548519803447907134763510508103401472 3587 (.node (.node (.node .leaf 5017566553712100306441962392041004432621568 3588 .leaf) 5017566713121827332106351768603015423983616 4821 .leaf) 5017566714348784367363192149703234617868288 3589 (.node .leaf 5017566714421817877920872444401183350587392 4822 .leaf))) 5017566715720512539881573610748108485951488 4823 (.node (.node (.node (.node .leaf 5017566717662423036359783805215616796721152 3590 .leaf) 5017566879277733360657206660833301856518144 3591 .leaf) 5017566879853246733160822809112805111758848 3592 (.node .leaf 5017566880177765286819249535895961132335104 3593 .leaf)) 5017566880565666370489087732753952313180160 3594 (.node (.node .leaf 5017566881151320947794529716245429194063872 3595 .leaf) 5017566881870078838123935786894059911512064 3596 (.node .leaf 5017566885433444675365488634501292621824000 3597 .leaf))))) 5017566885438515277766401552107279434645504 3598 (.node (.node (.node (.node (.node (.node .leaf 5017567211511208572072937581498258140692480 3599 .leaf) 5017567217741212619308313726071088290463744 4824 .leaf) 5017567527267761281722142741509066161389568 3600 (.node .leaf 5017567547387911608544599802064739437117440 3601 .leaf)) 5017567548361467269519879982414207498846208 3602 (.node (.node (.node .leaf 5017567550703451753441533801679366670778368 3603 .leaf) 5017567678493407286548997422459771749924864 3604 .leaf) 5017567712243336867025377007907997889855488 3605 (.node .leaf 5017567716137559510926497729305870136770560 3606 .leaf))) 5017568046172928581546478867775543062822912 3607 (.node (.node (.node (.node .leaf 5017568176953905705892449761387419355054080 3608 .leaf) 5017568209800000408406101783568496109551616 3609 .leaf) 5017568377181853313141740186594684050604032 3610 (.node .leaf 5017568509260904652121417987339184425140224 3611 .leaf)) 5017633641432698112999190273885138162024448 3612 (.node (.node .leaf 5017718712024428347615056117536996104077312 3613 .leaf) 5017803782616158582230921961188854046130176 3614 (.node .leaf 5017811425677134345497191158079450658111488 3615 .leaf)))) 5017820601114720483854464225032776431173632 3616 (.node (.node (.node (.node (.node .leaf 5017820602412794698488171132165400513478656 3617 .leaf) 5017821264430644161678693769803682489040896 3618 .leaf) 5017821264755162715337120496586838509617152 3619 (.node .leaf 5017821265079681268995547223369994530193408 3620 .leaf)) 5017821267026792590946107584068930653650944 3621 (.node (.node (.node .leaf 5017822225654600097938658501511815435911168 3622 .leaf) 5017822258504007527997438201308522246832128 4825 .leaf) 5017822260765986423060156464167500818415616 3623 (.node .leaf 5017822261351641000365598447658977699299328 3624 .leaf))) 5017822262649715214999305354791601781604352 3625 (.node (.node (.node (.node .leaf 5017822262723238949812542660078410567516160 3626 .leaf) 5017823554882595882854531405318875716255744 3627 .leaf) 5017905136250837182066230876477200422404096 3628 (.node .leaf 5017905334531673467364960940985528994496512 3629 .leaf)) 5017905501363366011601547783762147744415744 3630 (.node (.node .leaf 5017905501397649523049517105095204090675200 4826 .leaf) 5017905501407099957309421698113784005001216 3631 (.node .leaf 5017905501407243558353978802225672303411200 4827 .leaf))))))
def t99 : KT := (.node t97 5017395908551326005673524010495988593590272 3565 t98)
def t100 : KT := (.node t96 4975285304276047514946262218754337343012864 3499 t99)
def t101 : KT := (.node (.node (.node (.node (.node (.node (.node .leaf 5017905502632284262430005414660347652997120 3632 .leaf) 5017905502709610949043927408151646548525056 3633 .leaf) 5017906002776856504176660513476365466468352 3634 (.node .leaf 5017906830562205832712171411334783851036672 3635 .leaf)) 5017906837052576905880705946997904262561792 3636 (.node (.node (.node .leaf 5017907130092830859440040232187790842920960 3637 .leaf) 5017907161571130564307432730153924838817792 3638 .leaf) 5017907162898360742746388913520973094846464 3639 (.node .leaf 5017907163518241886257993090852860962275328 3640 .leaf))) 5017907296246330332554524345163673377964032 3641 (.node (.node (.node (.node .leaf 5017907331943371234981464291310835641352192 3642 .leaf) 5017907332004852289092533417283425746812928 3643 .leaf) 5017907794706828751897976684091320983093248 3644 (.node .leaf 5017907826185128456765369182057454978990080 3645 .leaf)) 5017907827556222806401488167630838844882944 4829 (.node (.node (.node .leaf 5017907960860328225012460797067203518136320 3646 .leaf) 5017908161158630440574417954057535241584640 3647 .leaf) 5017908293167327171241429023018968588222464 3648 (.node .leaf 5017908459320826644355913135994851123265536 3649 .leaf)))) 5017909123934824536813849587898381263437824 3650 (.node (.node (.node (.node (.node .leaf 5018058994391349286078519492144427872288768 3651 .leaf) 5018075775894796070641414902708563911639040 3652 .leaf) 5018075813538948295018915209554662298484736 3653 (.node .leaf 5018076476269851220837816885534839827070976 3654 .leaf)) 5018076476271118871438045114936336530276352 3655 (.node (.node (.node .leaf 5018079136347167908361468097663243787436032 4830 .leaf) 5018144064983079520694385335796285814341632 3656 .leaf) 5018160219516680637176844601302990100365312 3657 (.node .leaf 5018160846486526305257280746360421853691904 3658 .leaf))) 5018161548810594253304585433987878947389440 3659 (.node (.node (.node (.node .leaf 5018162546376324136124239966104144217899008 4831 .leaf) 5018229135574809755310251179448143756394496 3660 .leaf) 5018245252464258647415210138108749655572480 3661 (.node .leaf 5018245287580715574937621018370421850898432 3662 .leaf)) 5018245288161299549842150084255911918960640 3663 (.node (.node .leaf 5018245952126260334983233082593130017980416 3664 .leaf) 5018245952775297442300086536159442059132928 3665 (.node .leaf 5018246619402324487920451277639736889442304 3666 .leaf))))) 5018247613724637596139485682426790528679936 3667 (.node (.node (.node (.node (.node (.node .leaf 5018314206166539989926117023100001698447360 3668 .leaf) 5018399276758270224541982866751859640500224 3669 .leaf) 5018415758731091982377009456462988687966208 3670 (.node .leaf 5018416262059368706596862697137976601739264 3671 .leaf)) 5018416422116252408658431034628727864557568 4832 (.node (.node (.node .leaf 5018417252876627905184842806786645878112256 3672 .leaf) 5018417253788068686748939746462775482777600 3673 .leaf) 5018417255473410159752370735752642394324992 3674 (.node .leaf 5018417259378532865699399230471001430032384 4833 .leaf))) 5018417259629402652600620828559583853150208 3675 (.node (.node (.node (.node .leaf 5018417387489712794020751181123055960195072 3676 .leaf) 5018417568571065735422864726124115441745920 3677 .leaf) 5018417585121511972002627792065072491134976 3678 (.node .leaf 5018417587068623293953188152764008614592512 3679 .leaf)) 5018417885950211213364203520050703565324288 3680 (.node (.node .leaf 5018417919766815006416454401724721636835328 3681 .leaf) 5018417919766843479037357965471044316692480 3682 (.node .leaf 5018417919776833655154390984289480249180160 3683 .leaf)))) 5018418250384546971777417697534914672459776 3684 (.node (.node (.node (.node (.node .leaf 5018418250709065525435844424318070693036032 3685 .leaf) 5018418882871208052051108197905998775582720 3686 .leaf) 5018418916945656186185914510137380936089600 3687 (.node .leaf 5018500464239449351262807669064323481731072 3688 .leaf)) 5018500496430802518758579205372353030651904 4834 (.node (.node (.node .leaf 5018500496433473993363357056005585340727296 4835 .leaf) 5018500498313897485397613981295705642237952 3689 .leaf) 5018500499936490253689747615211485745119232 3690 (.node .leaf 5018501161047473123761332793289390380023808 4836 .leaf))) 5018501164613870676159095537189851045560320 3691 (.node (.node (.node (.node .leaf 5018501164875006699806110793898171905867776 3692 .leaf) 5018501165848562360781390974247639967596544 3693 .leaf) 5018501660090319582565295864994259305234432 3694 (.node .leaf 5018501660162575666778304940879571387940864 3695 .leaf)) 5018501660162713078122665618090085190729728 4837 (.node (.node .leaf 5018501663335505119149563132825819510996992 3696 .leaf) 5018501825661467302399151389052095822823424 4838 (.node .leaf 5018501828515448931288767065452233984311296 3697 .leaf))))))
def t102 : KT := (.node (.node (.node (.node (.node (.node (.node .leaf 5018501829489004592264047245801702046040064 3699 .leaf) 5018502331194688548191766852560909856931840 3700 .leaf) 5018502825176086222457633488313313665220608 4839 (.node .leaf 5018502826085482877292525196873841235722240 3701 .leaf)) 5018502827383557091926232104006465318027264 3702 (.node (.node (.node .leaf 5018502827457223429211299511721464095047680 4840 .leaf) 5018502827457223477568332296306631083294720 4841 .leaf) 5018502828032594199243085557572777359179776 3703 (.node .leaf 5018588889448055582972315478950477199048704 3704 .leaf))) 5018588892049278328460760066962536873852928 4842 (.node (.node (.node (.node .leaf 5018654488533460928389580397707433466658816 3705 .leaf) 5018739559125191163005446241359291408711680 3706 .leaf) 5018755676014640055110405200019897307889664 3707 (.node .leaf 5018755708208039537491115469922335109152768 4843 .leaf)) 5018755713334273725829478780082839674159104 3708 (.node (.node (.node .leaf 5018756008321639001339373425971662377975808 3709 .leaf) 5018756375676641742678428144504277670297600 3710 .leaf) 5018756376390962855907035412247669926526976 3711 (.node .leaf 5018756377977427582092664508220793988055040 3712 .leaf)))) 5018756378272790171945841958769525834907648 3713 (.node (.node (.node (.node (.node .leaf 5018756870640959806592423794104017834999808 4844 .leaf) 5018757005242635840026278103826957588234240 3714 .leaf) 5018757036790713273148030346368055620141056 4845 (.node .leaf 5018757038019009759527377508925715666436096 3715 .leaf)) 5018757038091265843740386584811027749142528 3716 (.node (.node (.node .leaf 5018757038737887966990054905928329841344512 4846 .leaf) 5018757040367332496450172475198358354395136 3717 .leaf) 5018757503703134259369730442754605193363456 3718 (.node .leaf 5018757537777582393504536754985987353870336 3719 .leaf))) 5018757836010133205598698668706370263449600 3720 (.node (.node (.node (.node .leaf 5018758201163350648345247454866702000455680 3721 .leaf) 5018758832931130044285603346561665473708032 3722 .leaf) 5018759036141225688571803438789924459905024 3723 (.node .leaf 5018759331391628463629055685489313078837248 3724 .leaf)) 5018832272777897160887581281901745962745856 3725 (.node (.node .leaf 5018840780031781316544223902336825369296896 3726 .leaf) 5018840781654374084836357536252605472178176 3727 (.node .leaf 5018840782045444295006766306614338411036672 3728 .leaf))))) 5018840782049881072107565109519576872255488 4847 (.node (.node (.node (.node (.node (.node .leaf 5018840782366793722164622459893752673599488 3729 .leaf) 5018840782377077542023385074381520784850944 4848 .leaf) 5018840782952448299470064443385229554483200 3730 (.node .leaf 5018840783675143092998820142380166175260672 4849 .leaf)) 5018840784279678477909020626752277810511872 3731 (.node (.node (.node .leaf 5018840784317074170615753394096430555070464 4850 .leaf) 5018840912759869762840755156647637784985600 4851 .leaf) 5018841443672223548026880173890887447740416 3732 (.node .leaf 5018841448285334065961531930866254820147200 3733 .leaf))) 5018841448285837907557521080638138763706368 3734 (.node (.node (.node (.node .leaf 5018841449838076067536987982770851838689280 3735 .leaf) 5018841449899557121648057108743441944150016 3736 .leaf) 5018841942457240521028759239601691073445888 3737 (.node .leaf 5018842075834366074642143947478815530287104 3738 .leaf)) 5018842090762219542929773379503992476794880 3739 (.node (.node .leaf 5018842107312665779509536445444949526183936 3740 .leaf) 5018842107961702886826389899011261567336448 3741 (.node .leaf 5018842108029522193938600171991335188824064 3742 .leaf)))) 5018842108610739994143243352577573608488960 3743 (.node (.node (.node (.node (.node .leaf 5018842108935258547801670079360729629065216 3744 .leaf) 5018842111596690982980837707803058008752128 3745 .leaf) 5018842112829481191702790800758601875980288 3746 (.node .leaf 5018842607071238413486695691505221213618176 3747 .leaf)) 5018843104950519032625504849846630399082496 3748 (.node (.node (.node .leaf 5018843108189366316208630970670707088818176 3749 .leaf) 5018843108516420171067514156256856515805184 3750 .leaf) 5018843109101440923072842025047585045086208 3751 (.node .leaf 5018843109812080402624614571853427305873408 4852 .leaf))) 5018843109814494385701221063389480598110208 3752 (.node (.node (.node (.node .leaf 5018843571215861332672500964261758345674752 3753 .leaf) 5018843602757543567551304932302727501840384 3754 .leaf) 5018843602767805101575660290014976332005376 4853 (.node .leaf 5018843602767829611337727157006864325017600 3755 .leaf)) 5018843602770853898853701341018442885496832 3756 (.node (.node .leaf 5018843605352569465673877057252610692612096 4854 .leaf) 5018843605353691996818718746567975666450432 3757 (.node .leaf 5018843610482606325342134905023636835401728 3758 .leaf))))))
def t103 : KT := (.node t101 5018501829229770044517374333195626240540672 3698 t102)
def t104 : KT := (.node (.node (.node (.node (.node (.node (.node .leaf 5018844106089113212275657284508947086049280 4856 .leaf) 5018844401983358698244921529141171020890112 3759 .leaf) 5018844734290357644473889755092936090976256 3760 (.node .leaf 5018844769405055459200476109983976630779904 4857 .leaf)) 5018909700308651632237177928663007292817408 3761 (.node (.node (.node .leaf 5018925852246104319452223379904463414231040 3762 .leaf) 5018925983351599997456621000299495727038464 3763 .leaf) 5018926814119097363029041565178908402253824 3764 (.node .leaf 5018927183745729979977083371193615838609408 3765 .leaf))) 5018927184070248533635510097976771859185664 3766 (.node (.node (.node (.node .leaf 5018927644886594728601462130058321077469184 3767 .leaf) 5018927811040094201715946243034203612512256 3768 .leaf) 5018927845114542335850752555265585773019136 3769 (.node .leaf 5018927977193593674830430356010086147555328 3770 .leaf)) 5018928342349347656717474886353686190096384 4858 (.node (.node (.node .leaf 5018928641807591567288366807913616287727616 3771 .leaf) 5018994770900381866853043772314865234870272 3772 .leaf) 5019079841492112101468909615966723176923136 3773 (.node .leaf 5019097323051166084970693200179965923950592 4861 .leaf)))) 5019098284530553617176646156289684566704128 3774 (.node (.node (.node (.node (.node .leaf 5019249982675572570700641303270439061028864 3775 .leaf) 5019266431872020409034568487882810030292992 3776 .leaf) 5019267927253515667064925504665752845680640 3777 (.node .leaf 5019268291687851425478139682149963952816128 4859 .leaf)) 5019268295582074069379260403547836199731200 3778 (.node (.node (.node .leaf 5019268958318681422899189111834748892741632 3779 .leaf) 5019269290297992688969160037499616184238080 4860 .leaf) 5060764431439927063243173005377114782826496 3780 (.node .leaf 5060772074500902826509442202267711394807808 3781 .leaf))) 5060780714482875428462616077013603217047552 3782 (.node (.node (.node (.node .leaf 5060780749595037941988745973101650350440448 3783 .leaf) 5060780750573018279232108560551109392859136 4862 .leaf) 5060780750573018295642332088523126510452736 3784 (.node .leaf 5060780914710823035711906502220867912597504 3785 .leaf)) 5060781082811433830776950975895686571098112 3786 (.node (.node .leaf 5060781379096873320920552528917133357219840 3787 .leaf) 5060781581341709978374763059398298212237312 4863 (.node .leaf 5060781912675730143686758092208698212483072 3788 .leaf))))) 5060782376017870159607457206772428567478272 3789 (.node (.node (.node (.node (.node (.node .leaf 5060782407496169864474849704738562563375104 3790 .leaf) 5060782408863964862121109228953505321975808 3791 .leaf) 5060782410092318293742263519003810727985152 3792 (.node .leaf 5060782410741355401059116972570122769137664 3793 .leaf)) 5060782410802836455170186098542712874598400 4864 (.node (.node (.node .leaf 5060782411132567974334043561663469107281920 3794 .leaf) 5060782412104713621604577693879827066519552 3795 .leaf) 5060782576315538549869300249062011939323904 4865 (.node .leaf 5060782578192929088807307992678629386485760 3796 .leaf))) 5060782740840740826990623695815379207061504 3797 (.node (.node (.node (.node .leaf 5060782746030502384324994865542882129870848 3798 .leaf) 5060783072183820237510109141477490998378496 4866 .leaf) 5060783073480498055779502139660028868558848 3799 (.node .leaf 5060783075679871847175480151256808929886208 3800 .leaf)) 5060783404417166703161754382593857773633536 3801 (.node (.node .leaf 5060783405066203810478607836160169814786048 3802 .leaf) 5060783405715240917795461289726481855938560 3803 (.node .leaf 5060783407090641819043090190350404833771520 3804 .leaf)))) 5060783409999899946566876666785338690109440 4867 (.node (.node (.node (.node (.node .leaf 5060783571868740390909945402702364390981632 3805 .leaf) 5060783578359111464078479938365484802506752 3806 .leaf) 5060783739383062783369433778184957816995840 3807 (.node .leaf 5060783743286792806772266220094055337951232 3808 .leaf)) 5060783907096406320064754169702533646254080 3809 (.node (.node (.node .leaf 5060784037552864890752298336531253917908992 3810 .leaf) 5060784203706364363866782449507136452952064 3811 .leaf) 5060784404007201880629196065300461582811136 3812 (.node .leaf 5060849502031657297859038849028972724879360 3813 .leaf))) 5060934572623387532474904692680830666932224 3814 (.node (.node (.node (.node .leaf 5060951852587332736381252442172614311411712 3815 .leaf) 5060951884714669548565498393705060348461056 4868 .leaf) 5060951885437230390695589152558181175525376 3816 (.node .leaf 5060951886725938350992062872530918483951616 4869 .leaf)) 5060953514122327467526093571931439661842432 4870 (.node (.node .leaf 5061019643215117767090770536332688608985088 3817 .leaf) 5061112356867823764972905576875143163019264 3818 (.node .leaf 5061120862889676845003992772810647378329600 4871 .leaf))))))
def t105 : KT := (.node (.node (.node (.node (.node (.node (.node .leaf 5061120868340449118189095645491250837061632 3820 .leaf) 5061121195779669759541662969695675598503936 3821 .leaf) 5061121200647448064418063871443015907147776 3822 (.node .leaf 5061121329156795313155047677572800055345152 3823 .leaf)) 5061121363231243447289853989804182215852032 3824 (.node (.node (.node .leaf 5061121495310294786269531790548682590388224 3825 .leaf) 5061121827617293732498500016500447660474368 3826 .leaf) 5061121860465923736212608497484517821382656 3827 (.node .leaf 5061121861691741866633306328731829820981248 3828 .leaf))) 5061122673312644566358550013405037282197504 3829 (.node (.node (.node (.node .leaf 5061122691226449023483773800655698628968448 4872 .leaf) 5061122691233558513129389739574444299386880 4873 .leaf) 5061122692459239232205726893611242496196608 3830 (.node .leaf 5061122695704424768789994161442802701959168 3831 .leaf)) 5061122856016590276052797192321876866629632 3832 (.node (.node (.node .leaf 5061122856090114010866034497608685652541440 3833 .leaf) 5061123022239810532179833922380078077968384 3834 .leaf) 5061123022819126856484134758864071442825216 3835 (.node .leaf 5061123023143645410142561485647227463401472 3836 .leaf)))) 5061123023541053873314111403016443918286848 3837 (.node (.node (.node (.node (.node .leaf 5061123028335942268677389114177723792621568 3838 .leaf) 5061123028397550830612504634318628507877376 3839 .leaf) 5061123156845289517414372920307507940818944 3840 (.node .leaf 5061123322998788990528857033283390475862016 3841 .leaf)) 5061123355775162910029956438382148554063872 3842 (.node (.node (.node .leaf 5061123687433124748942071210767601582997504 3843 .leaf) 5061123687757643302600497937550757603573760 3844 .leaf) 5061123688795345302591428667604673585217536 4874 (.node .leaf 5061123689380236070892631571466537706455040 3845 .leaf))) 5061123689443041720845736054333269874835456 4875 (.node (.node (.node (.node .leaf 5061123689444394789308674974973734617612288 3846 .leaf) 5061123689453125980405754762052598140764160 3847 .leaf) 5061123689457682837690364246844501817032704 3848 (.node .leaf 5061123691069524096741304353072783026028544 3849 .leaf)) 5061123693598977268452179019647565973946368 3850 (.node (.node .leaf 5061123836387140878159938804236215027499008 3851 .leaf) 5061123858778921080591382952273980447260672 3852 (.node .leaf 5061123858808077044396632228508404620984320 3853 .leaf))))) 5061123858843079799007426355781177358417920 4876 (.node (.node (.node (.node (.node (.node .leaf 5061124021426732818774698655410730267836416 3854 .leaf) 5061124153766286356101277598162803151077376 3855 .leaf) 5061124652226784775444729937090450756206592 3856 (.node .leaf 5061124818380284248559214050066333291249664 3857 .leaf)) 5061189784398578236322502223636404493090816 3858 (.node (.node (.node .leaf 5061274854990308470938368067288262435143680 3859 .leaf) 5061367568643014468820503107830716989177856 3860 .leaf) 5061376077581107382344630594604130608611328 4877 (.node .leaf 5061376078168528500086132815747888539762688 3861 .leaf))) 5061376707085485490117129321504256416546816 3862 (.node (.node (.node (.node .leaf 5061376738563785194984521819470390412443648 3863 .leaf) 5061376738636675104497645010056450846752768 3864 .leaf) 5061376738637308929797759124757199198355456 3865 (.node .leaf 5061376741232823533765058824321699011362816 3866 .leaf)) 5061376744729637714494629628350354803392512 3867 (.node (.node .leaf 5061377403855976158564561001174656767492096 3868 .leaf) 5061377403888301248870380850912822699229184 3869 (.node .leaf 5061377406747487177685152265988636778954752 3870 .leaf)))) 5061377407464343592114215992535022441594880 3871 (.node (.node (.node (.node (.node .leaf 5061377870159981801918518112335434161848320 3872 .leaf) 5061378401136351942416168714354267336474624 3873 .leaf) 5061378401139009799680514425804475756183552 3874 (.node .leaf 5061378401142826368821631253191989756166144 4878 .leaf)) 5061378402110044030670192405606100990164992 4879 (.node (.node (.node .leaf 5061378403408122943189634335187697980669952 4880 .leaf) 5061378404642039677347337124193400050941952 3875 .leaf) 5061378405682290595879156452233333329362944 3876 (.node .leaf 5061378405682298023519392164514982724108288 3877 .leaf))) 5061379033234478113719906903166611907149824 3878 (.node (.node (.node (.node .leaf 5061380065265095975032288591405586348769280 4881 .leaf) 5061380067537857327837182516458936292343808 4882 .leaf) 5061461113063217832275058713252584218427392 3879 (.node .leaf 5061461144866036090800877938001874234900480 3880 .leaf)) 5061461148789414698507247935634170655539200 4883 (.node (.node .leaf 5061461150777724664965225751881749633171456 3881 .leaf) 5061461279216717305389542826228466753470464 3882 (.node .leaf 5061461480093702019955686705002043490172928 3883 .leaf))))))
def t106 : KT := (.node t104 5061120863214703916166250060539331426123776 3819 t105)
def t107 : KT := (.node t103 5018843769568953702184240104655399000473600 4855 t106)
def t108 : KT := (.node t100 5017905501407247272174096658366497000783872 4828 t107)
def t109 : KT := (.node (.node (.node (.node (.node (.node (.node .leaf 5061461483338887556539953972833603695935488 3885 .leaf) 5061461645598164385753317364411613984063488 3886 .leaf) 5061461813374256627159935111303276621987840 3887 (.node .leaf 5061461943830715197847479278131996893642752 3888 .leaf)) 5061461983097460190517113218893875383369728 3889 (.node (.node (.node .leaf 5061462109984214670961963391107879428685824 3890 .leaf) 5061462147952885448997890424737133836107776 3891 .leaf) 5061462975866403661560773883976958148083712 3892 (.node .leaf 5061463106905211509648868068963174638944256 3893 .leaf))) 5061463143251289519392661468676648943484928 3894 (.node (.node (.node (.node .leaf 5061463144942335420097119490273251019456512 3895 .leaf) 5061463273058710982763352181939057173987328 3896 .leaf) 5061463304537010687630744679905191169884160 3897 (.node .leaf 5061463305864240866069700863272239425912832 3898 .leaf)) 5061463307133159116898158494170439334494208 3899 (.node (.node (.node .leaf 5061463309149357396561157357250945782644736 4884 .leaf) 5061463439212210455877836294914939709030400 3900 .leaf) 5061463471339547268062082246447385746079744 3901 (.node .leaf 5061463474973392745560269649245450295836672 3902 .leaf)))) 5061463771519209402106804520866704779116544 3903 (.node (.node (.node (.node (.node .leaf 5061464135304508053203165244784603845099520 3904 .leaf) 5061464136602582267836872151917227927404544 3905 .leaf) 5061464139198730697104285966182476092014592 3906 (.node .leaf 5061464139847767804421139419748788133167104 3907 .leaf)) 5061464140172286358079566146531944153743360 3908 (.node (.node (.node .leaf 5061464141537035019820753355128420060626944 3909 .leaf) 5061464305027711616560343352375202606481408 3910 .leaf) 5061464436133207294564740972770234919288832 3911 (.node .leaf 5061464602286706767679225085746117454331904 3912 .leaf))) 5061464633765006472546617583712251450228736 3913 (.node (.node (.node (.node .leaf 5061465266900704660137161537649647594504192 3914 .leaf) 5061465298379004365004554035615781590401024 3915 .leaf) 5061465299746799362650813559830724349001728 3916 (.node .leaf 5061700207948959644017697285547552145408000 3917 .leaf)) 5061716324838408536122656244208158044585984 3918 (.node (.node .leaf 5061716360535449438549596190355320307974144 3919 .leaf) 5061717004380259896868222128136865131266048 3920 (.node .leaf 5061717021904261794423265374427290242383872 3921 .leaf))))) 5061717026801196063104915552409054724751360 3922 (.node (.node (.node (.node (.node (.node .leaf 5061717027125714616763342279192210745327616 3923 .leaf) 5061717686915034324752637628999288485838848 4885 .leaf) 5061718650987401159725433825870513535188992 3924 (.node .leaf 5061785278540689878633563129199410087460864 3925 .leaf)) 5061802060044136663196458539763546126811136 3926 (.node (.node (.node .leaf 5061870349132420113249428972851268029513728 3927 .leaf) 5061955419724150347865294816503125971566592 3928 .leaf) 5061971702767098713084737888139614405787648 3929 (.node .leaf 5061971905977337958415495084479761690394624 3930 .leaf))) 5061972071095657115399072787021697759838208 3931 (.node (.node (.node (.node .leaf 5061972367381096605542674340043144545959936 3932 .leaf) 5061972570529711195717805306298813426696192 3933 .leaf) 5061972897968931837070372630503238188138496 3934 (.node .leaf 5061973400389086696971453036019101049290752 4886 .leaf)) 5061973561933892622211455628840456287158272 3935 (.node (.node (.node .leaf 5061973562258411175869882355623612307734528 3936 .leaf) 5061973569722337910013697071636200780988416 3937 .leaf) 5061973728155975211442389094426025203335168 3938 (.node .leaf 5061973728160915830139177047103147608113152 3939 .leaf)))) 5061973732630651846543913916780523110268928 3940 (.node (.node (.node (.node (.node .leaf 5061973735875837383128181184612083316031488 3941 .leaf) 5061974392701389987783876193719868962373632 3942 .leaf) 5061974395361554772362815592760700638855168 3943 (.node .leaf 5061974395374865103665212001476416022511616 3944 .leaf)) 5061974527376589756030967808729617501519872 3945 (.node (.node (.node .leaf 5061974727667286067991555589310969005735936 4887 .leaf) 5061974896678703819320582887961168917299200 3946 .leaf) 5061974897327740926637436341527480958451712 3947 (.node .leaf 5061975223541143437569305834484593720295424 3948 .leaf))) 5062040490315880582481160660154983913619456 3949 (.node (.node (.node (.node .leaf 5062226748388789943817851306119305696903168 3950 .leaf) 5062226780191608202343670530868595713376256 3951 .leaf) 5062226780582044587213965186529580300632064 3952 (.node .leaf 5062226780582678412514079301230328652234752 3953 .leaf)) 5062226780582822013558636405342216950644736 3954 (.node (.node .leaf 5062226780589775522759302386346325331410944 3955 .leaf) 5062226782536899499745342472983462279118848 4888 (.node .leaf 5062226785708423614536924886182248063172608 3956 .leaf))))))
def t110 : KT := (.node (.node (.node (.node (.node (.node (.node .leaf 5062226786746137034041147696023348319354880 4889 .leaf) 5062226786746137034500121135321315673112576 4890 .leaf) 5062226786746137993928248470038913036058624 3958 (.node .leaf 5062227444543965235821578853066739441205248 4891 .leaf)) 5062227446103680309435313889904749935853568 3959 (.node (.node (.node .leaf 5062227448375310185044300977386842079887360 3960 .leaf) 5062227448441861841556283020965418998169600 3961 .leaf) 5062228109095085433601116707892499973144576 3962 (.node .leaf 5062228109163595511255248223065967305949184 4892 .leaf))) 5062228109808281259334013564966008925454336 3963 (.node (.node (.node (.node .leaf 5062228109810794277613762886924054147629056 3964 .leaf) 5062228109817012450431093352044872448606208 3965 .leaf) 5062228112989308077502237429290372220059648 3966 (.node .leaf 5062228115909975060428077970338776405245952 3967 .leaf)) 5062229107705349364377201720435251290832896 4894 (.node (.node (.node .leaf 5062229107705370298136694167354040502976512 4895 .leaf) 5062229109649947820372666030619418205093888 4893 .leaf) 5062229109976856572701124150724244348600320 3968 (.node .leaf 5062229110301375126359550877507400369176576 3969 .leaf)))) 5062229110311516331161376712719373994819584 3970 (.node (.node (.node (.node (.node .leaf 5062229110949903440320258039780728870273024 3971 .leaf) 5062229110950554596780922149805325809614848 4896 .leaf) 5062229110954349127747419548032994115584000 4897 (.node .leaf 5062229110954349137418826104950027513233408 4898 .leaf)) 5062229110954349137423548471432897158447104 4899 (.node (.node (.node .leaf 5062229111928404671752483314328418933276672 3972 .leaf) 5062229112830971899114982648194071615504384 3973 .leaf) 5062230105533227540242339877868338558271488 3974 (.node .leaf 5062230108778413076826607145699898764034048 3975 .leaf))) 5062295702091071286328758191110557739778048 3976 (.node (.node (.node (.node .leaf 5062312151287519124662685375722928709042176 3977 .leaf) 5062312185104125393595014828157496578801664 4900 .leaf) 5062312982055016490235105940602341384257536 3978 (.node .leaf 5062315474357508586952367635240579409903616 3979 .leaf)) 5062380772682801520944624034762415681830912 3980 (.node (.node .leaf 5062397591505881976226593025389494087450624 3981 .leaf) 5062399215721243036652360575085377071611904 3982 (.node .leaf 5062399748318449588997189007003877023678464 4901 .leaf))))) 5062400212642239875339265252940672281870336 3983 (.node (.node (.node (.node (.node (.node .leaf 5062465843274531755560489878414273623883776 3984 .leaf) 5062481960163980647665448837074879523061760 3985 .leaf) 5062481997159095764726095690354665868754944 3986 (.node .leaf 5062482160391928254914739262282144218611712 3987 .leaf)) 5062482458624479067008901176002527128190976 3988 (.node (.node (.node .leaf 5062482624777978540123385288978409663234048 3989 .leaf) 5062482790931478013237869401954292198277120 3990 .leaf) 5062483289391976432581321740881939803406336 3991 (.node .leaf 5062483954005974325039258192785469943578624 3992 .leaf))) 5062484154306811841801671808578795073437696 3993 (.node (.node (.node (.node .leaf 5062484467394326212670339963738294495215616 3994 .leaf) 5062484817549845610112778162763640696995840 3995 .leaf) 5062484818847919824746485069896264779300864 3996 (.node .leaf 5062484818920809734259608260482325213609984 3997 .leaf)) 5062484820532134772314166363135973487804416 4902 (.node (.node .leaf 5062484820795031146697045430595200902758400 3998 .leaf) 5062484824040216683281312698426761108520960 3999 (.node .leaf 5062484950926971163726162870640765153837056 4000 .leaf)))) 5062550913866261990176355722066131565936640 4001 (.node (.node (.node (.node (.node .leaf 5062635984457992224792221565717989507989504 4002 .leaf) 5062652101347441116897180524378595407167488 4003 .leaf) 5062653264421937428698569315209773152468992 4903 (.node .leaf 5062653467895070572532127008248598053781504 4004 .leaf)) 5062654427496433740499958106040950897770496 4005 (.node (.node (.node .leaf 5062806125641452694023953253021705392095232 4006 .leaf) 5062822242530901586128912211682311291273216 4007 .leaf) 5062824070219395790388237454417019176747008 4008 (.node .leaf 5062824766380146520125890791967505285906432 4904 .leaf))) 5062824767609767602347273311419307395121152 4009 (.node (.node (.node (.node .leaf 5062824768583323263322553491768775456849920 4010 .leaf) 5062891196233182928639819096673563334148096 4011 .leaf) 5062907977736629713202714507237699373498368 4012 (.node .leaf 5104336857448755551785928026764869548113920 4013 .leaf)) 5104337023602255024900412139740752083156992 4014 (.node (.node .leaf 5104337226812494524105591455153026056060928 4905 .leaf) 5104337226812494553119811125904126249009152 4906 (.node .leaf 5104338882769048934027129880441593964527616 4015 .leaf))))))
def t111 : KT := (.node t109 5062226786746131804228052043137538540437504 3957 t110)
def t112 : KT := (.node (.node (.node (.node (.node (.node (.node .leaf 5104339547452911210542176053539331079405568 4017 .leaf) 5104339548356602487460346512694592166428672 4018 .leaf) 5104339549979195255752480146610372269309952 4019 (.node .leaf 5104339553548899345995174141225088495648768 4020 .leaf)) 5104339848211746067846642060330755178889216 4021 (.node (.node (.node .leaf 5104340180518745014075610286282520248975360 4022 .leaf) 5104422426500984205745246209344375095296000 4023 .leaf) 5104422461548988000855332701925225317531648 4024 (.node .leaf 5104422463496099322805893062624161440989184 4025 .leaf))) 5104422463566453931118559794407228468887552 4026 (.node (.node (.node (.node .leaf 5104423091114982098203182661247905235468288 4027 .leaf) 5104423126877307006541876421572147713933312 4028 .leaf) 5104423622381010400852983681508735092523008 4029 (.node .leaf 5104506832478716547903175601092702897176576 4030 .leaf)) 5104508193509530591344867729649053193994240 4031 (.node (.node (.node .leaf 5104508199350864557196548811745861564366848 4032 .leaf) 5104508692943584671663600248926168860852224 4033 .leaf) 5104509657088207590849405521682705992908800 4034 (.node .leaf 5104510155548706010192857860610353598038016 4035 .leaf)))) 5104510820162703902650794312513883738210304 4036 (.node (.node (.node (.node (.node .leaf 5104592401530945201862493783672208444358656 4037 .leaf) 5104592604679559792037624749927877325094912 4038 .leaf) 5104592605077602080509288781997842131582976 4039 (.node .leaf 5104592605977634006671331657060501407399936 4040 .leaf)) 5104593264425779379619160300084067156623360 4041 (.node (.node (.node .leaf 5104593265138199016947425223725214358044672 4042 .leaf) 5104593265147706396449136944236439632084992 4043 .leaf) 5104593269618076238153987928614563485843456 4044 (.node .leaf 5104593269942594791812414655397719506419712 4045 .leaf))) 5104594264916480308548758972554078593220608 4046 (.node (.node (.node (.node .leaf 5104594264993173169862566851344629137145856 4907 .leaf) 5104594927907885432714561790541828630511616 4047 .leaf) 5104595226140436244808723704262211540090880 4048 (.node .leaf 5104677009034699365903420507760425024094208 4908 .leaf)) 5104679166434044087124300162181649815044096 4049 (.node (.node .leaf 5104679170977303838342274337145834103111680 4050 .leaf) 5104679171365838747312226648704573635559424 4051 (.node .leaf 5104679832414569326628267908898626010611712 4052 .leaf))))) 5104762044253907251750773132048276723335168 4053 (.node (.node (.node (.node (.node (.node .leaf 5104763871942401456010098374782984608808960 4054 .leaf) 5104848310766228500681679788712389165187072 4055 .leaf) 5104848479770674173709451825654357209120768 4056 (.node .leaf 5105001139139649063493411704343244650315776 4057 .leaf)) 5105019117869366980606424211461239491002368 4058 (.node (.node (.node .leaf 5105019416024591106086664131690323505053696 4059 .leaf) 5105019449450002132904616990355393624408064 4060 .leaf) 5105020116011111347313113802957859888037888 4061 (.node .leaf 5105020444423887649640961307511752711208960 4062 .leaf))) 5105020745252586891002537035497383785398272 4063 (.node (.node (.node (.node .leaf 5105020778101273839958452643974099306020864 4064 .leaf) 5105086209731379298109277547995102592368640 4065 .leaf) 5105171280323109532725143391646960534421504 4066 (.node .leaf 5105272467804288659445968193959424375652352 4067 .leaf)) 5105272499607106917971787418708714392125440 4068 (.node (.node .leaf 5105272505514992540335450544384099680780288 4069 .leaf) 5105272833861217186151316005359415585669120 4070 (.node .leaf 5105272833925233541462841590134999097540608 4071 .leaf)))) 5105272999113417082503529013871142141689856 4072 (.node (.node (.node (.node (.node .leaf 5105273132418286551903904645862954515824640 4073 .leaf) 5105273168115327454330844592010116779212800 4074 .leaf) 5105273498799733632267679184046101746417664 4075 (.node .leaf 5105273797032284444361841097766484655996928 4076 .leaf)) 5105273828510584149229233595732618651893760 4077 (.node (.node (.node .leaf 5105273832794609352700534858090727134461952 4078 .leaf) 5105273834417835946292782606707255588945920 4079 .leaf) 5105274327043338652785695010545578339729408 4080 (.node .leaf 5105274329629345877251282989598852878696448 4081 .leaf))) 5105274329640120907353222939511574855942144 4082 (.node (.node (.node (.node .leaf 5105274461646282336819777549670014796169216 4083 .leaf) 5105274793953281283048745775621779866255360 4084 .leaf) 5105275458567279175506682227525310006427648 4085 (.node .leaf 5105275491416543004520904823210128518938624 4086 .leaf)) 5105275658795226782755972652732574701977600 4087 (.node (.node .leaf 5105275661777374819792882319753568992624640 4088 .leaf) 5105275662689449426657093374130446948892672 4089 (.node .leaf 5105275790874278121735650453477075076513792 4090 .leaf))))))
def t113 : KT := (.node (.node (.node (.node (.node (.node (.node .leaf 5105275957027777594850134566452957611556864 4092 .leaf) 5105357570198837152587653262360572334178304 4093 .leaf) 5105357738623966501311124462818547013255168 4094 (.node .leaf 5105357739674215023600212521958565618909184 4095 .leaf)) 5105358867624014678977706941418342598049792 4096 (.node (.node (.node .leaf 5105358903386339587316400701742585076514816 4097 .leaf) 5105359901610481243037925204336491181899776 4098 .leaf) 5105360030698510990779095732249520343351296 4099 (.node .leaf 5105442646631901353055200188109238646603776 4100 .leaf))) 5105443273601747021135636333166670399930368 4101 (.node (.node (.node (.node .leaf 5105443310596862138196283186446456745623552 4102 .leaf) 5105443938215744913593572785070200540102656 4103 .leaf) 5105443973588267262362086004434206782914560 4104 (.node .leaf 5105443973912785816020512731217362803490816 4105 .leaf)) 5105443975601296415524514294010971473051648 4106 (.node (.node (.node .leaf 5105443976508934245287926545482610968100864 4107 .leaf) 5105445599750739644738413914829025890533376 4108 .leaf) 5105445638368447530091194402024592339107840 4109 (.node .leaf 5105445797444653702131473766444380878536704 4110 .leaf)))) 5105445798752926066808813636281623946199040 4111 (.node (.node (.node (.node (.node .leaf 5105445798753502946867120623489726938087424 4112 .leaf) 5105445932057738590967382140780790960619520 4113 .leaf) 5105446596671736483425318592684321100791808 4114 (.node .leaf 5105446762825235956539802705660203635834880 4115 .leaf)) 5105530541508604076958869225567943663812608 4116 (.node (.node (.node .leaf 5105530670342469879354279758480883832586240 4117 .leaf) 5105531002649468825583247984432648902672384 4118 .leaf) 5105613414785207490367368020470386284036096 4119 (.node .leaf 5105613451853212516941138064336233064038400 4120 .leaf))) 5105614110877505087692696970340050420105216 4121 (.node (.node (.node (.node .leaf 5105614115161530291163998232698158902673408 4122 .leaf) 5105614577859703802168756811301564029337600 4123 .leaf) 5105615242473701694626693263205094169509888 4124 (.node .leaf 5105615278567660835969626116132612834590720 4125 .leaf)) 5105615941224262600630619268013344927252480 4126 (.node (.node .leaf 5105615945056370365120556748737878717104128 4127 .leaf) 5105782891354670067141163255870572027969536 4128 (.node .leaf 5105782906282523535428792687895748974477312 4129 .leaf))))) 5105782924780081093959116114535642147323904 4130 (.node (.node (.node (.node (.node (.node .leaf 5105782926431829826056499024685846423928832 4909 .leaf) 5105782928674303737860236835933514394238976 4131 .leaf) 5105783090284543459756746773945212641214464 4132 (.node .leaf 5105783223661669013370131481822337098055680 4133 .leaf)) 5105783389815168486484615594798219633098752 4134 (.node (.node (.node .leaf 5105783587520491399279729511027044949950464 4135 .leaf) 5105783754970797436427692301734054864093184 4136 .leaf) 5105783759117282549774230674029771048878080 4137 (.node .leaf 5105784252129475634578560172817233637015552 4910 .leaf))) 5105784253683558325216562291559546407092224 4138 (.node (.node (.node (.node .leaf 5105784253750232537792433587785338338672640 4139 .leaf) 5105784256279706754483976105824794571702272 4140 .leaf) 5105784256604225308142402832607950592278528 4141 (.node .leaf 5105784258226818076434536466523730695159808 4142 .leaf)) 5105784260173929398385096827222666818617344 4143 (.node (.node .leaf 5105784719043164271400488498605279913443328 4144 .leaf) 5105784753187460807593069226633179433009152 4145 (.node .leaf 5105785087371722673714823397487363267493888 4146 .leaf)))) 5105785254823296361463014417595869884841984 4147 (.node (.node (.node (.node (.node .leaf 5105785416433536083359524355607568131817472 4148 .leaf) 5105785417731610297993231262740192214122496 4149 .leaf) 5105785914966290586915985770420527819653120 4150 (.node .leaf 5105786081120423885330583998097158706298880 4151 .leaf)) 5105786082085105992104266572636149845590016 4152 (.node (.node (.node .leaf 5105786082345608190451167714643722354294784 4153 .leaf) 5105786082409624545762693299419305866166272 4154 .leaf) 5105786214424659529430845515388222728830976 4155 (.node .leaf 5105851845056951409652070140861824070844416 4156 .leaf))) 5105867994398255667599701777838032027648000 4157 (.node (.node (.node (.node .leaf 5105867997643441204183969045669592233410560 4158 .leaf) 5105867998292478311500822499235904274563072 4159 .leaf) 5105868294253399247985997325474195040108544 4160 (.node .leaf 5105868328327847382120803637705577200615424 4161 .leaf)) 5105868658038697899082358049392094106091520 4162 (.node (.node .leaf 5105868663584669275080861680940170629611520 4911 .leaf) 5105869322652695791540294501295624246263808 4163 (.node .leaf 5105869323301732898857147954861936287416320 4164 .leaf))))))
def t114 : KT := (.node t112 5105275825922281916845736946057925298749440 4091 t113)
def t115 : KT := (.node t111 5104338885365197363294543694706842129137664 4016 t114)
def t116 : KT := (.node (.node (.node (.node (.node (.node (.node .leaf 5105870454248892398474290794160667995668480 4166 .leaf) 5105870987757394612927829625669165823033344 4167 .leaf) 5105871151711645326590303550456033108295680 4168 (.node .leaf 5105871155858005407992874099343984481533952 4169 .leaf)) 5105871285016389764046711359040080670883840 4170 (.node (.node (.node .leaf 5105871322011504881107358212319867016577024 4171 .leaf) 5105953064340948794898714167923577928548352 4172 .leaf) 5105953070182282760750395250020386298920960 4173 (.node .leaf 5105953712079981897118460827102994998755328 4174 .leaf))) 5105953732200132223940917887658668274483200 4175 (.node (.node (.node (.node .leaf 5105953732849169331257771341224980315635712 4176 .leaf) 5105953732915720987769753384803557233917952 4177 .leaf) 5105954361766126321288767846981348192419840 4178 (.node .leaf 5105954396880832801595629199534313026093056 4179 .leaf)) 5105954397527183579027233377904093967679488 4180 (.node (.node (.node .leaf 5105954397528451229627461607305590670884864 4181 .leaf) 5105954397857526640570497818880650367729664 4182 .leaf) 5105954399085759992007841427044290558689280 4183 (.node .leaf 5105954401357389867616828514526382702723072 4184 .leaf)))) 5105954860226624740632220185908995797549056 4185 (.node (.node (.node (.node (.node .leaf 5105955391788015633135198656718557501456384 4186 .leaf) 5105955392112534186793625383501713522032640 4187 .leaf) 5105955394121270418241748375161349613813760 4188 (.node .leaf 5105955394384164062402612470983805666066432 4189 .leaf)) 5105955396655793938011599558465897810100224 4190 (.node (.node (.node .leaf 5105956023301121052433608976740173542850560 4191 .leaf) 5106021986240411878883801828165539954950144 4192 .leaf) 5106040096971854448362570142536736274644992 4193 (.node .leaf 5106107056832142113499667671817397897003008 4194 .leaf))) 5106296637975040937126040577299370381148160 4195 (.node (.node (.node (.node .leaf 5106464120702509836526026456988965704564736 4196 .leaf) 5147876717371687309889796904879647444959232 4197 .leaf) 5147884360432663073156066101770244056940544 4198 (.node .leaf 5147893000414635675109239976516135879180288 4199 .leaf)) 5147893200711036414770854789404222547820544 4200 (.node (.node .leaf 5147893204536805926259651123121272821645312 4201 .leaf) 5147893831182133040681660541395548554395648 4202 (.node .leaf 5147893863958506960182759946494306632597504 4203 .leaf))))) 5147893869214961299193591693151724973850624 4914 (.node (.node (.node (.node (.node (.node .leaf 5147894696088094895700413003281926901989376 4204 .leaf) 5147894697971189862339447779205279513575424 4205 .leaf) 5147894699918301184290008139904215637032960 4206 (.node .leaf 5147894864124689335453931892181162048618496 4207 .leaf)) 5147895028408404173231777637949407355731968 4208 (.node (.node (.node .leaf 5147895360638076432846823870409873530290176 4209 .leaf) 5147895693009215528391246219164712024670208 4210 .leaf) 5147895991177626191169954010082021509955584 4211 (.node .leaf 5147896025326865710718225857001709159579648 4912 .leaf))) 5147896189847143462363272061021527711154176 4915 (.node (.node (.node (.node .leaf 5148224642799584011619529476377675825152000 4212 .leaf) 5148233615088555559801671577075332717477888 4213 .leaf) 5148234113549053979145123916002980322607104 4214 (.node .leaf 5148234959244404813005173912907569944330240 4215 .leaf)) 5148234979431106796339613017041820138340352 4216 (.node (.node .leaf 5148234980338110800802911153812711281786880 4217 .leaf) 5148234983583296337387178421644271487549440 4218 (.node .leaf 5148235312714196704744317882146046676566016 4219 .leaf)))) 5148235314656237424293965325238995987202048 4220 (.node (.node (.node (.node (.node .leaf 5148235973689403549247121837053290265706496 4221 .leaf) 5148235974043078066710797840070870460006400 4222 .leaf) 5148235974080601267241577001583337814360064 4917 (.node .leaf 5148235974082375235317872951517268259373056 4223 .leaf)) 5148235974082525137283801887076415126372352 4916 (.node (.node (.node .leaf 5148235974083642885918101180918764962578432 4224 .leaf) 5148235974083765441981990433565979975876608 4225 .leaf) 5148235974086812012418671754422506720591872 4226 (.node .leaf 5148235975376012672850781055744653880459264 4227 .leaf))) 5148235976676758362089265813510510272839680 4228 (.node (.node (.node (.node .leaf 5148235978621198209435048323576214086221824 4229 .leaf) 5148235978947618238993817394461615161606144 4230 .leaf) 5148236107391047656518933271713570743123968 4231 (.node .leaf 5148236122318901124806562703738747689631744 4232 .leaf)) 5148236145099216236207959163335252641841152 4233 (.node (.node .leaf 5148236145101895382655988288405227637309440 4918 .leaf) 5148236306320921049134516789788211356368896 4234 (.node .leaf 5148236306393177133347525865673523439075328 4235 .leaf))))))
def t117 : KT := (.node (.node (.node (.node (.node (.node (.node .leaf 5148573434109533530543751148914544021078016 4237 .leaf) 5148573434692018981348622558902279143948288 4238 .leaf) 5148573930261006381571483633015946737614848 4239 (.node .leaf 5148573930295232947777645826856357724160000 4240 .leaf)) 5148573930301571200778786973863841240186880 4241 (.node (.node (.node .leaf 5148573930304740327279357547367582998200320 4242 .leaf) 5148573931529924632399941263914146646196224 4243 .leaf) 5148574229762475444494103177634529555775488 4244 (.node .leaf 5148574431613015820035527236757574354206720 4245 .leaf))) 5148575060529972810066523742513942230990848 4246 (.node (.node (.node (.node .leaf 5148575226683472283181007855489824766033920 4247 .leaf) 5148575260831444152129051473008015712452608 4248 .leaf) 5148575260835247103929736161212505822068736 4249 (.node .leaf 5148575558990471229409976081441589836120064 4250 .leaf)) 5148575590468770934277368579407723832016896 4251 (.node (.node (.node .leaf 5148575591117808041594222032974035873169408 4252 .leaf) 5148575591442326595252648759757191893745664 4253 .leaf) 5148575592415882256227928940106659955474432 4254 (.node .leaf 5148575760191974497634546686998322593398784 4255 .leaf)))) 5148575762139085819585107047697258716856320 4256 (.node (.node (.node (.node (.node .leaf 5148575763112641480560387228046726778585088 4257 .leaf) 5148575891297470175638944307393354906206208 4258 .leaf) 5148576259626028577953279206275438260256768 4259 (.node .leaf 5148576423905940463930440263839193457754112 4260 .leaf)) 5148576425779528051067763319251320795299840 4261 (.node (.node (.node .leaf 5148576427726639373018323679950256918757376 4262 .leaf) 5148576589985916202231687071528267206885376 4263 .leaf) 5148576592906583185157527612576671392071680 4264 (.node .leaf 5148576595178213060766514700058763536105472 4265 .leaf))) 5148576888218467014325848985248650116464640 4266 (.node (.node (.node (.node .leaf 5148576922364023937892333697985964704530432 4919 .leaf) 5149075348716886357778187912896255245680640 4267 .leaf) 5149085151773355271532750578473324813221888 4268 (.node .leaf 5149085183964847088312922077372143064055808 4920 .leaf)) 5149085188831997757589405291320109516718080 4913 (.node (.node .leaf 5149085484080354217761718804425089883308032 4269 .leaf) 5149085681712153395743595415367106414247936 4270 (.node .leaf 5149085683010227610377302322499730496552960 4271 .leaf))))) 5149085687878005915253703224247070805196800 4272 (.node (.node (.node (.node (.node (.node .leaf 5149085688527043022570556677813382846349312 4273 .leaf) 5149085850461801298125493342608237113901056 4274 .leaf) 5149086678695265113841683333895740081569792 4275 (.node .leaf 5149086681229298663697913907487649789116416 4276 .leaf)) 5149086686421595522232741536018146118336512 4277 (.node (.node (.node .leaf 5149087010940149180659468319174166694592512 4278 .leaf) 5149087012302239750604700811082374288769024 4279 .leaf) 5149663199798022236822979621568664228069376 4280 (.node .leaf 5149918411573212940670577152524238054227968 4281 .leaf))) 5191449178428519593542638418848252432482304 4282 (.node (.node (.node (.node .leaf 5191449309534015271547036039243284745289728 4283 .leaf) 5191450006996643167719080972130885046370304 4284 .leaf) 5191450010169572620090339164077133169426432 4285 (.node .leaf 5191450344099164334611441023944678342393856 4286 .leaf)) 5191450819843363997865022488051404507185152 4287 (.node (.node .leaf 5191450971069010002691877169002110095720448 4288 .leaf) 5191451839480659592641798040727621157781504 4289 (.node .leaf 5191452005634159065756282153703503692824576 4290 .leaf)))) 5191452005698322970464091703969860093476864 4921 (.node (.node (.node (.node (.node .leaf 5191452166919880233994365364932045919223808 4291 .leaf) 5191452499292163186135087405060891204386816 4922 .leaf) 5191452499299135264436342666769123072016384 4292 (.node .leaf 5191517930929297667828974698282771718078464 4293 .leaf)) 5191603001521027902444840541934629660131328 4923 (.node (.node (.node .leaf 5191789296655729069298127908165079518937088 4294 .leaf) 5191789297304007319370899423622878396940288 4295 .leaf) 5191789793751476585551923472973761311932416 4296 (.node .leaf 5191789959001141180703680022682494461542400 4924 .leaf))) 5191789961852087380616967946648579970433024 4297 (.node (.node (.node (.node .leaf 5191789962501124487933821400214892011585536 4298 .leaf) 5191791122330435263150942923214509551124480 4299 .leaf) 5191792084203428306727761108488954539147264 4300 (.node .leaf 5191792288001080004219745528310935461036032 4301 .leaf)) 5191792748817426199185697560392484679319552 4302 (.node (.node .leaf 5192045800597123752545001622661585549918208 4303 .leaf) 5192113425071409310140035603845777312448512 4304 (.node .leaf 5192130073270759099887069459709638031179776 4925 .leaf))))))
def t118 : KT := (.node t116 5148236312811292122303051325451331767894016 4236 t117)
def t119 : KT := (.node (.node (.node (.node (.node (.node (.node .leaf 5192131404764044031530709733230757141282816 4306 .leaf) 5192131734472223073887486294284041736683520 4307 .leaf) 5192131735381762379551240889857926286540800 4308 (.node .leaf 5192132366570349245191224483096386307358720 4309 .leaf)) 5192132565500222637806808001171026920603648 4310 (.node (.node (.node .leaf 5192132732627277771896572294496377517375488 4311 .leaf) 5192133695798345030107097386903446587703296 4312 .leaf) 5192283566254869779371767291149493196554240 4313 (.node .leaf 5192385455669680469269602125428429544226816 4314 .leaf))) 5192386118661085593435404943416179581517824 4315 (.node (.node (.node (.node .leaf 5192557221068501998927101362428028412493824 4316 .leaf) 5192623848621790717835230665756924964765696 4317 .leaf) 5192641659892329043598682776357432968871936 4926 (.node .leaf 5192641959353233287313998980128121284460544 4318 .leaf)) 5192643487580823247858008019092140854345728 4319 (.node (.node (.node .leaf 5192708919213520952451096509408782906818560 4320 .leaf) 5192895177286430313787787155373104690102272 4321 .leaf) 5192895213694130771188660168858184385036288 4927 (.node .leaf 5192896506514426098703660059180164970446848 4322 .leaf)))) 5192896544220059377192229491998853462753280 4323 (.node (.node (.node (.node (.node .leaf 5192896544222735914778339888699069442293760 4928 .leaf) 5192981410952656860205041789856140377456640 4324 .leaf) 5192982075566654752662978241759670517628928 4325 (.node .leaf 5192982772957026564622014098761958736003072 4326 .leaf)) 5192983404794650537578851145566730797973504 4327 (.node (.node (.node .leaf 5193049201580441890914559884016214675030016 4328 .leaf) 5193474554539093063993889102275504385294336 4329 .leaf) 5234989003303447556536420804382180107091968 4330 (.node .leaf 5235005485276269314371447394093309154557952 4331 .leaf))) 5235006153135452743413651113828399500492800 4332 (.node (.node (.node (.node .leaf 5235007114034890126015189118753376426786816 4333 .leaf) 5235007612495388545358641457681024031916032 4334 .leaf) 5235008110955886964702093796608671637045248 4335 (.node .leaf 5235159144486908025768152491685895991197696 4336 .leaf)) 5235329285670368494999884178989611875303424 4337 (.node (.node .leaf 5235345772909148257527336379728559840690176 4338 .leaf) 5235345901020315806448295476577865379610624 4339 (.node .leaf 5235348261243756564185879370471603030720512 4340 .leaf))))) 5235348263190867886136439731170539154178048 4341 (.node (.node (.node (.node (.node (.node .leaf 5235584497445559198847481709945185701462016 4342 .leaf) 5235601943563003875868313572412851880984576 4343 .leaf) 5235601978611007670978400064993702103220224 4344 (.node .leaf 5235603937404997553242122928123442301501440 4345 .leaf)) 5235669568037289433463347553597043643514880 4346 (.node (.node (.node .leaf 5235685684926738325568306512257649542692864 4347 .leaf) 5235686017233737271797274738209414612779008 4348 .leaf) 5235686217461684879046565163416679308328960 4349 (.node .leaf 5235687711545105922443215273066998041411584 4350 .leaf))) 5235687712920506823690844173690921019244544 4351 (.node (.node (.node (.node .leaf 5236179991587670841158542615508191295832064 4352 .leaf) 5236196274630619206377985687144679730053120 4353 .leaf) 5236265062179401075774408459160049237884928 4354 (.node .leaf 5236281214829273400317718834042652560719872 4355 .leaf)) 5236281875883845818679147803753953902985216 4356 (.node (.node .leaf 5236281876134703226179976548039787334860800 4357 .leaf) 5236350132771131310390274302811907179937792 4929 (.node .leaf 5236369606877907708432845023807606374793216 4930 .leaf)))) 5236605344546322014237871833767481006096384 4358 (.node (.node (.node (.node (.node .leaf 5236622790663766691258703696235147185618944 4359 .leaf) 5236690415138052248853737677419338948149248 4360 .leaf) 5236706532027501140958696636079944847327232 4361 (.node .leaf 5236945626913242952701335208374912774307840 4362 .leaf)) 5278561595465775518193659938745817407422464 4363 (.node (.node (.node .leaf 5278564087768267614910921633384055433068544 4364 .leaf) 5278564420075266561139889859335820503154688 4365 .leaf) 5278630216861057914475598597785304380211200 4366 (.node .leaf 5278715287452788149091464441437162322264064 4367 .leaf))) 5278732068956234933654359852001298361614336 4368 (.node (.node (.node (.node .leaf 5278732105951350050715006705281084707307520 4369 .leaf) 5278732567416733352997812190928945966743552 4370 .leaf) 5278732600193107272498911596027704044945408 4371 (.node .leaf 5278732600256489802510323066102539205214208 4931 .leaf)) 5278733765863752013567714201124129954856960 4372 (.node (.node .leaf 5278733768135381889176701288606222098890752 4373 .leaf) 5278800358044518383707330285089020264316928 4374 (.node .leaf 5278902210139695402886091539305014245720064 4375 .leaf))))))
def t120 : KT := (.node (.node (.node (.node (.node (.node (.node .leaf 5278904403236081026533911139873401300058112 4377 .leaf) 5278904536288688026488869120967369736323072 4378 .leaf) 5278904573996998023902421892680650414096384 4934 (.node .leaf 5278904702442187499603353233943252271366144 4379 .leaf)) 5279073015937153764575759678512260269998080 4380 (.node (.node (.node .leaf 5279140640411439322170793659696452032528384 4381 .leaf) 5279225711003169556786659503348309974581248 4382 .leaf) 5279497039667809152739215992964489699917824 4383 (.node .leaf 5279498898896851638801359795408359143768064 4384 .leaf))) 5279499365816801776341993574626845190520832 4385 (.node (.node (.node (.node .leaf 5279500362737798615028898252482140400779264 4386 .leaf) 5279582312503051448967257010203370434068480 4387 .leaf) 5279582774873537279813018288519877782142976 4388 (.node .leaf 5279582812590095379148281202264551045726208 4932 .leaf)) 5279584634040331188939736029220719663513600 4389 (.node (.node (.node .leaf 5279667546980454232889304567553508876746752 4390 .leaf) 5279667679311768041314400019195853189152768 4391 .leaf) 5279668177772266460657852358123500794281984 4392 (.node .leaf 5279668542206602219071066535607711901417472 4393 .leaf)))) 5279671002381757503604082278713503890014208 4394 (.node (.node (.node (.node (.node .leaf 5279736134553550964481854565259457626898432 4395 .leaf) 5279752749903498275930265862847711131205632 4396 .leaf) 5279753248363996695273718201775358736334848 4397 (.node .leaf 5279754245284993533960622879630653946593280 4398 .leaf)) 5279754444288390661389443702992103345750016 4399 (.node (.node (.node .leaf 5279754448758126677794180572669478847905792 4400 .leaf) 5279755242205990372647527557485949156851712 4401 .leaf) 5279838019100583349503288497791053665927168 4402 (.node .leaf 5279838023643843100721262672755237953994752 4403 .leaf))) 5279838651262725876118552271378981748473856 4404 (.node (.node (.node (.node .leaf 5279839648183722714805456949234276958732288 4405 .leaf) 5279839680311059526989702900766722995781632 4406 .leaf) 5279840510429519785245270012079823629844480 4407 (.node .leaf 5279840645104719553492361627089572168990720 4408 .leaf)) 5280007498590712909202924274239643595046912 4409 (.node (.node .leaf 5280008823924486050217676456648831628476416 4410 .leaf) 5280009789367183184037188636537992842838016 4411 (.node .leaf 5280010287827681603380640975465640447967232 4412 .leaf))))) 5280092866116919741279245124479260364374016 4413 (.node (.node (.node (.node (.node (.node .leaf 5280093198423918687508213350431025434460160 4414 .leaf) 5280093895226734446261464879839591717142528 4415 .leaf) 5280093899059476036051516475264873858596864 4416 (.node .leaf 5280093900357550250685223382397497940901888 4417 .leaf)) 5280094859958913418653054480189850784890880 4418 (.node (.node (.node .leaf 5280095524572911311110990932093380925063168 4419 .leaf) 5280095690726410784225475045069263460106240 4420 .leaf) 5280095722204710489092867543035397456003072 4421 (.node .leaf 5280095727791880509598788630132116833697792 4933 .leaf))) 5280095893875025374400606011324932340842496 4422 (.node (.node (.node (.node .leaf 5280178801620316258614890462324231818444800 4423 .leaf) 5280178965756983626766261597518859553734656 4424 .leaf) 5280416699287392841408781314474321163321344 4425 (.node .leaf 5322101289235207803183044703884712769224704 4426 .leaf)) 5322117572278156168402487775521201203445760 4427 (.node (.node .leaf 5322120230734147738234233583135321764134912 4428 .leaf) 5322186359826938037798910547536570711277568 4429 (.node .leaf 5322441571602128741646508078492144537436160 4430 .leaf)))) 5322459848487070784239760505839223392174080 4431 (.node (.node (.node (.node (.node .leaf 5322460180794069730468728731790988462260224 4432 .leaf) 5322460513101068676697696957742753532346368 4433 .leaf) 5322460549122628132783063630673071816310784 4434 (.node .leaf 5322460845408067622926665183694518602432512 4435 .leaf)) 5322781853969049680109971453099576305647616 4436 (.node (.node (.node .leaf 5322798006584695438447119634141768641937408 4935 .leaf) 5322799798546992776474255654494890090299392 4437 .leaf) 5322800961621489088275644445326067835600896 4438 (.node .leaf 5323037065744240383957568984055150131806208 4439 .leaf))) 5323122136335970618573434827707008073859072 4440 (.node (.node (.node (.node .leaf 5323292277519431087805166515010723957964800 4441 .leaf) 5323310388250873657283934829381920277659648 4442 .leaf) 5323310755605876398622989547914535569981440 4443 (.node .leaf 5323310920533557741316775829643106105425920 4936 .leaf)) 5323734411981529045447391143834149707579392 4444 (.node (.node .leaf 5324228054028463668579690795181161320546304 4445 .leaf) 5324247826294900969203300239311182990671872 4937 (.node .leaf 5324248158601899915432268465262948060758016 4446 .leaf))))))
def t121 : KT := (.node t119 5278904370135188553374385007991487201280000 4376 t120)
def t122 : KT := (.node t118 5192131369649352406504319805241091097100288 4305 t121)
def t123 : KT := (.node t115 5105869823779063423163713271570838692298752 4165 t122)
def t124 : KT := (.node t108 5061461481391776234589393612134667572477952 3884 t123)
def t125 : KT := (.node t93 4974349193576287196003620822008033947156480 3357 t124)
def t126 : KT := (.node t62 4713016123173663673550665939639516945973248 2264 t125)

theorem idx00 : idxOk t126 0 keys00 = true := by decide +kernel
theorem idx01 : idxOk t126 100 keys01 = true := by decide +kernel
theorem idx02 : idxOk t126 200 keys02 = true := by decide +kernel
theorem idx03 : idxOk t126 300 keys03 = true := by decide +kernel
theorem idx04 : idxOk t126 400 keys04 = true := by decide +kernel
theorem idx05 : idxOk t126 500 keys05 = true := by decide +kernel
theorem idx06 : idxOk t126 600 keys06 = true := by decide +kernel
theorem idx07 : idxOk t126 700 keys07 = true := by decide +kernel
theorem idx08 : idxOk t126 800 keys08 = true := by decide +kernel
theorem idx09 : idxOk t126 900 keys09 = true := by decide +kernel
theorem idx10 : idxOk t126 1000 keys10 = true := by decide +kernel
theorem idx11 : idxOk t126 1100 keys11 = true := by decide +kernel
theorem idx12 : idxOk t126 1200 keys12 = true := by decide +kernel
theorem idx13 : idxOk t126 1300 keys13 = true := by decide +kernel
theorem idx14 : idxOk t126 1400 keys14 = true := by decide +kernel
theorem idx15 : idxOk t126 1500 keys15 = true := by decide +kernel
theorem idx16 : idxOk t126 1600 keys16 = true := by decide +kernel
theorem idx17 : idxOk t126 1700 keys17 = true := by decide +kernel
theorem idx18 : idxOk t126 1800 keys18 = true := by decide +kernel
theorem idx19 : idxOk t126 1900 keys19 = true := by decide +kernel
theorem idx20 : idxOk t126 2000 keys20 = true := by decide +kernel
theorem idx21 : idxOk t126 2100 keys21 = true := by decide +kernel
theorem idx22 : idxOk t126 2200 keys22 = true := by decide +kernel
theorem idx23 : idxOk t126 2300 keys23 = true := by decide +kernel
theorem idx24 : idxOk t126 2400 keys24 = true := by decide +kernel
theorem idx25 : idxOk t126 2500 keys25 = true := by decide +kernel
theorem idx26 : idxOk t126 2600 keys26 = true := by decide +kernel
theorem idx27 : idxOk t126 2700 keys27 = true := by decide +kernel
theorem idx28 : idxOk t126 2800 keys28 = true := by decide +kernel
theorem idx29 : idxOk t126 2900 keys29 = true := by decide +kernel
theorem idx30 : idxOk t126 3000 keys30 = true := by decide +kernel
theorem idx31 : idxOk t126 3100 keys31 = true := by decide +kernel
theorem idx32 : idxOk t126 3200 keys32 = true := by decide +kernel
theorem idx33 : idxOk t126 3300 keys33 = true := by decide +kernel
theorem idx34 : idxOk t126 3400 keys34 = true := by decide +kernel
theorem idx35 : idxOk t126 3500 keys35 = true := by decide +kernel
theorem idx36 : idxOk t126 3600 keys36 = true := by decide +kernel
theorem idx37 : idxOk t126 3700 keys37 = true := by decide +kernel
theorem idx38 : idxOk t126 3800 keys38 = true := by decide +kernel
theorem idx39 : idxOk t126 3900 keys39 = true := by decide +kernel
theorem idx40 : idxOk t126 4000 keys40 = true := by decide +kernel
theorem idx41 : idxOk t126 4100 keys41 = true := by decide +kernel
theorem idx42 : idxOk t126 4200 keys42 = true := by decide +kernel
theorem idx43 : idxOk t126 4300 keys43 = true := by decide +kernel
theorem idx44 : idxOk t126 4400 keys44 = true := by decide +kernel
theorem idx45 : idxOk t126 4500 keys45 = true := by decide +kernel
theorem idx46 : idxOk t126 4600 keys46 = true := by decide +kernel
theorem idx47 : idxOk t126 4700 keys47 = true := by decide +kernel
theorem idx48 : idxOk t126 4800 keys48 = true := by decide +kernel
theorem idx49 : idxOk t126 4900 keys49 = true := by decide +kernel
/-- The certificate tree. -/
def tree : KT := t126
theorem idxAll : idxOk tree 0 (keysOf enUsLines) = true := by
  rw [keysEq]
  simp only [keyChunks, List.flatten_cons, List.flatten_nil, List.append_nil]
  refine idxOk_append _ _ _ _ idx00 ?_
  refine idxOk_append _ _ _ _ idx01 ?_
  refine idxOk_append _ _ _ _ idx02 ?_
  refine idxOk_append _ _ _ _ idx03 ?_
  refine idxOk_append _ _ _ _ idx04 ?_
  refine idxOk_append _ _ _ _ idx05 ?_
  refine idxOk_append _ _ _ _ idx06 ?_
  refine idxOk_append _ _ _ _ idx07 ?_
  refine idxOk_append _ _ _ _ idx08 ?_
  refine idxOk_append _ _ _ _ idx09 ?_
  refine idxOk_append _ _ _ _ idx10 ?_
  refine idxOk_append _ _ _ _ idx11 ?_
  refine idxOk_append _ _ _ _ idx12 ?_
  refine idxOk_append _ _ _ _ idx13 ?_
  refine idxOk_append _ _ _ _ idx14 ?_
  refine idxOk_append _ _ _ _ idx15 ?_
  refine idxOk_append _ _ _ _ idx16 ?_
  refine idxOk_append _ _ _ _ idx17 ?_
  refine idxOk_append _ _ _ _ idx18 ?_
  refine idxOk_append _ _ _ _ idx19 ?_
  refine idxOk_append _ _ _ _ idx20 ?_
  refine idxOk_append _ _ _ _ idx21 ?_
  refine idxOk_append _ _ _ _ idx22 ?_
  refine idxOk_append _ _ _ _ idx23 ?_
  refine idxOk_append _ _ _ _ idx24 ?_
  refine idxOk_append _ _ _ _ idx25 ?_
  refine idxOk_append _ _ _ _ idx26 ?_
  refine idxOk_append _ _ _ _ idx27 ?_
  refine idxOk_append _ _ _ _ idx28 ?_
  refine idxOk_append _ _ _ _ idx29 ?_
  refine idxOk_append _ _ _ _ idx30 ?_
  refine idxOk_append _ _ _ _ idx31 ?_
  refine idxOk_append _ _ _ _ idx32 ?_
  refine idxOk_append _ _ _ _ idx33 ?_
  refine idxOk_append _ _ _ _ idx34 ?_
  refine idxOk_append _ _ _ _ idx35 ?_
  refine idxOk_append _ _ _ _ idx36 ?_
  refine idxOk_append _ _ _ _ idx37 ?_
  refine idxOk_append _ _ _ _ idx38 ?_
  refine idxOk_append _ _ _ _ idx39 ?_
  refine idxOk_append _ _ _ _ idx40 ?_
  refine idxOk_append _ _ _ _ idx41 ?_
  refine idxOk_append _ _ _ _ idx42 ?_
  refine idxOk_append _ _ _ _ idx43 ?_
  refine idxOk_append _ _ _ _ idx44 ?_
  refine idxOk_append _ _ _ _ idx45 ?_
  refine idxOk_append _ _ _ _ idx46 ?_
  refine idxOk_append _ _ _ _ idx47 ?_
  refine idxOk_append _ _ _ _ idx48 ?_
  exact idx49

theorem keysNodup : (keysOf enUsLines).Nodup := (idxOk_spec _ _ _ idxAll).2

end Verif.Proofs.EnUsTable
