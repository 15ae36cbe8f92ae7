import Verif.Model.Epv.Table

/-!
# `PR00_DATA` of `crates/tofas/src/test_data.rs` (lines 17012-18013)

The two parts of a TT date and the two precession rates. `⟨m, e⟩` is `m * 10^-e`; digits as in the source. Written by tools/gen_testdata.py.
-/

namespace Verif.TestData
open Epv

/-- Entries 0 to 99. -/
def Pr_0 : List (Dec × Dec × Dec × Dec) := [
  (⟨24642620042662332, 10⟩, ⟨34494094239519046, 17⟩, ⟨-50581944537078424, 23⟩, ⟨-42605982984009986, 24⟩),
  (⟨24521644702904290, 10⟩, ⟨92599124418676082, 17⟩, ⟨-24675622096540799, 24⟩, ⟨-20784672174760211, 25⟩),
  (⟨24838286296017971, 10⟩, ⟨64587577076051517, 17⟩, ⟨-12840737523388134, 22⟩, ⟨-10815959121986198, 23⟩),
  (⟨24547408411546899, 10⟩, ⟨25050919384306469, 17⟩, ⟨-12712124881085230, 23⟩, ⟨-10707626631022564, 24⟩),
  (⟨24842493101990428, 10⟩, ⟨60549303216642003, 17⟩, ⟨-13008042829341814, 22⟩, ⟨-10956883063994238, 23⟩),
  (⟨24580454134960473, 10⟩, ⟨61449793061880653, 17⟩, ⟨-25857168193497670, 23⟩, ⟨-21779907398761258, 24⟩),
  (⟨24553738497474175, 10⟩, ⟨52585671822840863, 17⟩, ⟨-15230946423232876, 23⟩, ⟨-12829270406220514, 24⟩),
  (⟨24757591349256490, 10⟩, ⟨28429110895043797, 17⟩, ⟨-96310354450952386, 23⟩, ⟨-81123755926649032, 24⟩),
  (⟨24848393406380583, 10⟩, ⟨16476138958445219, 17⟩, ⟨-13242546053182999, 22⟩, ⟨-11154408889782708, 23⟩),
  (⟨24669439770625490, 10⟩, ⟨40648678705840624, 17⟩, ⟨-61249459451676680, 23⟩, ⟨-51591401854173846, 24⟩),
  (⟨24654016318814475, 10⟩, ⟨18534862957294007, 17⟩, ⟨-55114061049508360, 23⟩, ⟨-46423457396615748, 24⟩),
  (⟨24596309641616195, 10⟩, ⟨40837823443650456, 17⟩, ⟨-32162712578991064, 23⟩, ⟨-27091168546428645, 24⟩),
  (⟨24780974245218402, 10⟩, ⟨35283707445247903, 17⟩, ⟨-10561093273401600, 22⟩, ⟨-88957782152730296, 24⟩),
  (⟨24756330392885078, 10⟩, ⟨15628030745905375, 17⟩, ⟨-95808312912617856, 23⟩, ⟨-80700878288485707, 24⟩),
  (⟨24752014842469543, 10⟩, ⟨30501818653737323, 17⟩, ⟨-94092438844058738, 23⟩, ⟨-79255570045854903, 24⟩),
  (⟨24785959841755638, 10⟩, ⟨87766026588658952, 18⟩, ⟨-10759284803204128, 22⟩, ⟨-90627181189011236, 24⟩),
  (⟨24802903685318818, 10⟩, ⟨60849413182825107, 18⟩, ⟨-11433197995685851, 22⟩, ⟨-96303660073789709, 24⟩),
  (⟨24731500419124905, 10⟩, ⟨14181519454070735, 17⟩, ⟨-85932389464507227, 23⟩, ⟨-72382229604010092, 24⟩),
  (⟨24571305511071314, 10⟩, ⟨14323455378270911, 17⟩, ⟨-22216523018238485, 23⟩, ⟨-18713333588531261, 24⟩),
  (⟨24604515885477941, 10⟩, ⟨21608380448960618, 17⟩, ⟨-35425896587310367, 23⟩, ⟨-29839800763013966, 24⟩),
  (⟨24784880085745938, 10⟩, ⟨45416047290940165, 17⟩, ⟨-10716484351416680, 22⟩, ⟨-90266666120392779, 24⟩),
  (⟨24648363061314188, 10⟩, ⟨63788927135448437, 17⟩, ⟨-52867336132057026, 23⟩, ⟨-44531004971570803, 24⟩),
  (⟨24870479032439897, 10⟩, ⟨99585803256564942, 17⟩, ⟨-14121309606055579, 22⟩, ⟨-11894605521670040, 23⟩),
  (⟨24654063166986280, 10⟩, ⟨53637894687032273, 17⟩, ⟨-55134090613427798, 23⟩, ⟨-46440328619486648, 24⟩),
  (⟨24679838999600285, 10⟩, ⟨51872731710320363, 18⟩, ⟨-65384235056092468, 23⟩, ⟨-55074189648448983, 24⟩),
  (⟨24724289741959530, 10⟩, ⟨77859883928232398, 18⟩, ⟨-83064162632395765, 23⟩, ⟨-69966276150230903, 24⟩),
  (⟨24629040049257488, 10⟩, ⟨68140767050939288, 17⟩, ⟨-45181980514572668, 23⟩, ⟨-38057506697407446, 24⟩),
  (⟨24621960727394745, 10⟩, ⟨98006457601610308, 17⟩, ⟨-42367441151690778, 23⟩, ⟨-35686775059859003, 24⟩),
  (⟨24863961841239971, 10⟩, ⟨40891357684972274, 17⟩, ⟨-13861861598175867, 22⟩, ⟨-11676068304286963, 23⟩),
  (⟨24544494254298406, 10⟩, ⟨45283718736387879, 17⟩, ⟨-11553853636956510, 23⟩, ⟨-97319961887796518, 25⟩),
  (⟨24860499322380042, 10⟩, ⟨61596016323522029, 17⟩, ⟨-13724225833135079, 22⟩, ⟨-11560135492352056, 23⟩),
  (⟨24726625374143361, 10⟩, ⟨87266265156606793, 17⟩, ⟨-83996297484915079, 23⟩, ⟨-70751428283639465, 24⟩),
  (⟨24814847385702073, 10⟩, ⟨10695557301861813, 17⟩, ⟨-11908264695438471, 22⟩, ⟨-10030522306453094, 23⟩),
  (⟨24661532998701846, 10⟩, ⟨46711012083504477, 17⟩, ⟨-58104863609153489, 23⟩, ⟨-48942658351244248, 24⟩),
  (⟨24666603231529747, 10⟩, ⟨43092918995419949, 17⟩, ⟨-60121352505502050, 23⟩, ⟨-50641179283793476, 24⟩),
  (⟨24632482960101105, 10⟩, ⟨76785698994499207, 17⟩, ⟨-46551706628458724, 23⟩, ⟨-39211248967205005, 24⟩),
  (⟨24764776952612000, 10⟩, ⟨34556381942361747, 17⟩, ⟨-99168597764088315, 23⟩, ⟨-83531300102305644, 24⟩),
  (⟨24547777471332741, 10⟩, ⟨91607765666294061, 17⟩, ⟨-12861561833546370, 23⟩, ⟨-10833499772358096, 24⟩),
  (⟨24577747820013068, 10⟩, ⟨11458377497444572, 17⟩, ⟨-24778770984800584, 23⟩, ⟨-20871556137372492, 24⟩),
  (⟨24545766959164892, 10⟩, ⟨80938303160351521, 17⟩, ⟨-12061476992564711, 23⟩, ⟨-10159575481139104, 24⟩),
  (⟨24836672836305024, 10⟩, ⟨58257268137228679, 17⟩, ⟨-12776538649616088, 22⟩, ⟨-10761883381155015, 23⟩),
  (⟨24827363817202887, 10⟩, ⟨13931737602595762, 17⟩, ⟨-12406105717880735, 22⟩, ⟨-10449861782723501, 23⟩),
  (⟨24668620987336906, 10⟩, ⟨70691384465059359, 17⟩, ⟨-60924991762921869, 23⟩, ⟨-51318097516974725, 24⟩),
  (⟨24615802328153402, 10⟩, ⟨22114201727017790, 17⟩, ⟨-39914982847922793, 23⟩, ⟨-33621030104507630, 24⟩),
  (⟨24848053085052338, 10⟩, ⟨99986895231994000, 17⟩, ⟨-13229342278848998, 22⟩, ⟨-11143287138933712, 23⟩),
  (⟨24601939075227152, 10⟩, ⟨39862793147728892, 18⟩, ⟨-34400295991797471, 23⟩, ⟨-28975920935523712, 24⟩),
  (⟨24580956172944522, 10⟩, ⟨75275700034122839, 17⟩, ⟨-26057398533765964, 23⟩, ⟨-21948564625137758, 24⟩),
  (⟨24725074411200704, 10⟩, ⟨56714190635413519, 17⟩, ⟨-83378202797115799, 23⟩, ⟨-70230797216726264, 24⟩),
  (⟨24862635909262043, 10⟩, ⟨71871362172870068, 17⟩, ⟨-13809247241370403, 22⟩, ⟨-11631750387858799, 23⟩),
  (⟨24766315973684140, 10⟩, ⟨32701641605175547, 17⟩, ⟨-99780653748453535, 23⟩, ⟨-84046844672483453, 24⟩),
  (⟨24690552476153015, 10⟩, ⟨31590633898902054, 17⟩, ⟨-69646460000080451, 23⟩, ⟨-58664330065143677, 24⟩),
  (⟨24697105751005593, 10⟩, ⟨71616259705786611, 17⟩, ⟨-72254549446430061, 23⟩, ⟨-60861165627495224, 24⟩),
  (⟨24638826827982743, 10⟩, ⟨19508142594757061, 17⟩, ⟨-49072636478687036, 23⟩, ⟨-41334668604106816, 24⟩),
  (⟨24641182409638441, 10⟩, ⟨70455929801849615, 17⟩, ⟨-50011571177502860, 23⟩, ⟨-42125548357089011, 24⟩),
  (⟨24565789094645781, 10⟩, ⟨15110731852871295, 17⟩, ⟨-20022456605996008, 23⟩, ⟨-16865236266822600, 24⟩),
  (⟨24726107011676556, 10⟩, ⟨20500599926135021, 17⟩, ⟨-83787468625764151, 23⟩, ⟨-70575528386927646, 24⟩),
  (⟨24843808838134059, 10⟩, ⟨50031370759223581, 17⟩, ⟨-13060333043136859, 22⟩, ⟨-11000927949566971, 23⟩),
  (⟨24817936257723267, 10⟩, ⟨16842462331636909, 17⟩, ⟨-12031145842250852, 22⟩, ⟨-10134027066858384, 23⟩),
  (⟨24666907182098236, 10⟩, ⟨47938544179289333, 17⟩, ⟨-60242438438276899, 23⟩, ⟨-50743171906628026, 24⟩),
  (⟨24617997631469760, 10⟩, ⟨60794291397778533, 17⟩, ⟨-40789680555699706, 23⟩, ⟨-34357802009873531, 24⟩),
  (⟨24533141365503646, 10⟩, ⟨48386412729908812, 17⟩, ⟨-70384826428296289, 24⟩, ⟨-59286267947612152, 25⟩),
  (⟨24636802519638753, 10⟩, ⟨20977707056799799, 18⟩, ⟨-48266796238250884, 23⟩, ⟨-40655896447637322, 24⟩),
  (⟨24692976847158950, 10⟩, ⟨10982916564135092, 17⟩, ⟨-70609908906939337, 23⟩, ⟨-59475858528655051, 24⟩),
  (⟨24618972557450784, 10⟩, ⟨10250996837798965, 17⟩, ⟨-41175436999818035, 23⟩, ⟨-34682730848503489, 24⟩),
  (⟨24803600775560923, 10⟩, ⟨81753398456231441, 17⟩, ⟨-11461225004422531, 22⟩, ⟨-96539736062614593, 24⟩),
  (⟨24652135109580816, 10⟩, ⟨43167068883691639, 17⟩, ⟨-54366809204142845, 23⟩, ⟨-45794035184801110, 24⟩),
  (⟨24667730534162945, 10⟩, ⟨13031742097013199, 17⟩, ⟨-60568529846190116, 23⟩, ⟨-51017843928511211, 24⟩),
  (⟨24724228895029812, 10⟩, ⟨77796566331126349, 17⟩, ⟨-83042745992317401, 23⟩, ⟨-69948236570869046, 24⟩),
  (⟨24824749491037265, 10⟩, ⟨82675505788938974, 17⟩, ⟨-12302397012854457, 22⟩, ⟨-10362506277471931, 23⟩),
  (⟨24830316161200535, 10⟩, ⟨32896731959178371, 17⟩, ⟨-12523607586028196, 22⟩, ⟨-10548835490450580, 23⟩),
  (⟨24852502021624409, 10⟩, ⟨17136506700567133, 17⟩, ⟨-13405964612562176, 22⟩, ⟨-11292058962825605, 23⟩),
  (⟨24718912585030920, 10⟩, ⟨82969999151999430, 19⟩, ⟨-80925177256134768, 23⟩, ⟨-68164574468374483, 24⟩),
  (⟨24553242487042234, 10⟩, ⟨51852636047018530, 17⟩, ⟨-15033634235079920, 23⟩, ⟨-12663071186164430, 24⟩),
  (⟨24713920984036112, 10⟩, ⟨81249120539750674, 17⟩, ⟨-78943018053795900, 23⟩, ⟨-66494969987579120, 24⟩),
  (⟨24759542004029928, 10⟩, ⟨30647891464768939, 17⟩, ⟨-97086295513645645, 23⟩, ⟨-81777343526261165, 24⟩),
  (⟨24786949075267953, 10⟩, ⟨86196594208269650, 17⟩, ⟨-10798938475682937, 22⟩, ⟨-90961190430915178, 24⟩),
  (⟨24758240986565338, 10⟩, ⟨70414948078329465, 17⟩, ⟨-96570410932183853, 23⟩, ⟨-81342805670893382, 24⟩),
  (⟨24707483699452910, 10⟩, ⟨89538166191014046, 17⟩, ⟨-76382984206738331, 23⟩, ⟨-64338612427100786, 24⟩),
  (⟨24561574194158795, 10⟩, ⟨88482041399668554, 17⟩, ⟨-18348941686778860, 23⟩, ⟨-15455607814927361, 24⟩),
  (⟨24845122726741699, 10⟩, ⟨24433454448907843, 17⟩, ⟨-13112489794013690, 22⟩, ⟨-11044860417183565, 23⟩),
  (⟨24520507761173304, 10⟩, ⟨65013759862247367, 17⟩, ⟨-20142581855413348, 24⟩, ⟨-16966419690660198, 25⟩),
  (⟨24663424183241646, 10⟩, ⟨65538382624796887, 17⟩, ⟨-58857811589450701, 23⟩, ⟨-49576878508851511, 24⟩),
  (⟨24583685861187456, 10⟩, ⟨65455447315042381, 17⟩, ⟨-27142713282235090, 23⟩, ⟨-22862742641201851, 24⟩),
  (⟨24641458582312441, 10⟩, ⟨92724574426479900, 17⟩, ⟨-50122301721928923, 23⟩, ⟨-42218818470264835, 24⟩),
  (⟨24875924385060645, 10⟩, ⟨73967040060289568, 17⟩, ⟨-14337790993077847, 22⟩, ⟨-12076951265319032, 23⟩),
  (⟨24865260793722328, 10⟩, ⟨84101202050198698, 17⟩, ⟨-13913697955847625, 22⟩, ⟨-11719730899569298, 23⟩),
  (⟨24807645727094612, 10⟩, ⟨73930860839291190, 17⟩, ⟨-11622077665526173, 22⟩, ⟨-97894623820417345, 24⟩),
  (⟨24539817012310866, 10⟩, ⟨10275476779646731, 17⟩, ⟨-96921364705998145, 24⟩, ⟨-81638419662252400, 25⟩),
  (⟨24601239678876051, 10⟩, ⟨65022921645814213, 17⟩, ⟨-34124545977672504, 23⟩, ⟨-28743652276871480, 24⟩),
  (⟨24718908956554974, 10⟩, ⟨88891834161989458, 17⟩, ⟨-80927236647800044, 23⟩, ⟨-68166309126997250, 24⟩),
  (⟨24759808300813804, 10⟩, ⟨92368056646631003, 17⟩, ⟨-97194667168187270, 23⟩, ⟨-81868626708661655, 24⟩),
  (⟨24577062782861474, 10⟩, ⟨30143394702910220, 17⟩, ⟨-24507047701949647, 23⟩, ⟨-20642679259042516, 24⟩),
  (⟨24686870703740916, 10⟩, ⟨99230045373272135, 17⟩, ⟨-68184763292514396, 23⟩, ⟨-57433119489506531, 24⟩),
  (⟨24740722631659335, 10⟩, ⟨38185559661733481, 17⟩, ⟨-89601384098746592, 23⟩, ⟨-75472682618133280, 24⟩),
  (⟨24528705239106985, 10⟩, ⟨90671059925249675, 17⟩, ⟨-52757409603023185, 24⟩, ⟨-44438412093452523, 25⟩),
  (⟨24561827735621436, 10⟩, ⟨93346732620859396, 17⟩, ⟨-18449978676059801, 23⟩, ⟨-15540712891164668, 24⟩),
  (⟨24618677602451248, 10⟩, ⟨16310665670325553, 17⟩, ⟨-41058362708614356, 23⟩, ⟨-34584117295692513, 24⟩),
  (⟨24716570425909651, 10⟩, ⟨62604558735493065, 17⟩, ⟨-79996064658876597, 23⟩, ⟨-67381968029035380, 24⟩),
  (⟨24755102054959922, 10⟩, ⟨82101130086096630, 17⟩, ⟨-95322398073496011, 23⟩, ⟨-80291584427666910, 24⟩),
  (⟨24520932635758556, 10⟩, ⟨69093253129552445, 17⟩, ⟨-21834099264129682, 24⟩, ⟨-18391211928137265, 25⟩)]

/-- Entries 100 to 199. -/
def Pr_1 : List (Dec × Dec × Dec × Dec) := [
  (⟨24784964221644802, 10⟩, ⟨19412457202313882, 18⟩, ⟨-10719657853460214, 22⟩, ⟨-90293397036988404, 24⟩),
  (⟨24706096422490543, 10⟩, ⟨79922217839587151, 17⟩, ⟨-75830826641819015, 23⟩, ⟨-63873521256115860, 24⟩),
  (⟨24703235807463876, 10⟩, ⟨54519484481501967, 17⟩, ⟨-74692036157839386, 23⟩, ⟨-62914299770527809, 24⟩),
  (⟨24736204141272223, 10⟩, ⟨34897906609000706, 17⟩, ⟨-87804070397462592, 23⟩, ⟨-73958776466943286, 24⟩),
  (⟨24572877314827787, 10⟩, ⟨54923678358269501, 17⟩, ⟨-22843306579476174, 23⟩, ⟨-19241283432870967, 24⟩),
  (⟨24650897544408017, 10⟩, ⟨24533678712058737, 17⟩, ⟨-53873839299636471, 23⟩, ⟨-45378798729278309, 24⟩),
  (⟨24696090006087562, 10⟩, ⟨43763953179320714, 17⟩, ⟨-71849439587050135, 23⟩, ⟨-60519935096851168, 24⟩),
  (⟨24786467022685050, 10⟩, ⟨71200965813170614, 17⟩, ⟨-10779705687923263, 22⟩, ⟨-90799189575565864, 24⟩),
  (⟨24832142062323792, 10⟩, ⟨49464198660652248, 17⟩, ⟨-12596296814977587, 22⟩, ⟨-10610062793593667, 23⟩),
  (⟨24782224993448411, 10⟩, ⟨13032630864742600, 17⟩, ⟨-10610751992604182, 22⟩, ⟨-89376065507535290, 24⟩),
  (⟨24640501701385025, 10⟩, ⟨19969948331146004, 17⟩, ⟨-49738818464129819, 23⟩, ⟨-41895804372922955, 24⟩),
  (⟨24836529594327644, 10⟩, ⟨20620259955393183, 18⟩, ⟨-12770617836957207, 22⟩, ⟨-10756896185709990, 23⟩),
  (⟨24595204071768085, 10⟩, ⟨23405733104192883, 17⟩, ⟨-31722290233663940, 23⟩, ⟨-26720193742622315, 24⟩),
  (⟨24859381926143342, 10⟩, ⟨63359898741277199, 17⟩, ⟨-13679789566197822, 22⟩, ⟨-11522706112158618, 23⟩),
  (⟨24711680027976125, 10⟩, ⟨87026830732998706, 17⟩, ⟨-78051930701325239, 23⟩, ⟨-65744392821673577, 24⟩),
  (⟨24548703590359958, 10⟩, ⟨78321868219008850, 17⟩, ⟨-13229387689820296, 23⟩, ⟨-11143325389323018, 24⟩),
  (⟨24842274431638326, 10⟩, ⟨57834915658893538, 17⟩, ⟨-12999334645473013, 22⟩, ⟨-10949548021082557, 23⟩),
  (⟨24676882853294560, 10⟩, ⟨38164325915995023, 17⟩, ⟨-64209769987144759, 23⟩, ⟨-54084918887886985, 24⟩),
  (⟨24742718292362173, 10⟩, ⟨95848147935679451, 17⟩, ⟨-90397431025828176, 23⟩, ⟨-76143205709724775, 24⟩),
  (⟨24664629801658788, 10⟩, ⟨42286033735390050, 17⟩, ⟨-59336409039399036, 23⟩, ⟨-49980008815432389, 24⟩),
  (⟨24831470099214716, 10⟩, ⟨43912417749067889, 17⟩, ⟨-12569548093882101, 22⟩, ⟨-10587531916889177, 23⟩),
  (⟨24564207458095122, 10⟩, ⟨46503753333899445, 18⟩, ⟨-19392960934402545, 23⟩, ⟨-16335001968440520, 24⟩),
  (⟨24565176707929014, 10⟩, ⟨63508644820606475, 17⟩, ⟨-19780811083904987, 23⟩, ⟨-16661694368688864, 24⟩),
  (⟨24766742158763395, 10⟩, ⟨22435807864879964, 17⟩, ⟨-99949756154212297, 23⟩, ⟨-84189282340474493, 24⟩),
  (⟨24531180770773380, 10⟩, ⟨99552522172998181, 17⟩, ⟨-62607113937774898, 24⟩, ⟨-52734975998312635, 25⟩),
  (⟨24534300607215823, 10⟩, ⟨63584331342898459, 17⟩, ⟨-75001635565291708, 24⟩, ⟨-63175080315967371, 25⟩),
  (⟨24823489481158699, 10⟩, ⟨72642251525716495, 17⟩, ⟨-12252241513539473, 22⟩, ⟨-10320259496136701, 23⟩),
  (⟨24880284067846797, 10⟩, ⟨31988033120841664, 17⟩, ⟨-14511025911235204, 22⟩, ⟨-12222869814769782, 23⟩),
  (⟨24558868067895593, 10⟩, ⟨20027166816429465, 18⟩, ⟨-17269168256331636, 23⟩, ⟨-14546097339890219, 24⟩),
  (⟨24587134083402934, 10⟩, ⟨71715480831890421, 17⟩, ⟨-28514457082611582, 23⟩, ⟨-24018184440684676, 24⟩),
  (⟨24672477214251775, 10⟩, ⟨23801750756867956, 17⟩, ⟨-62456901250279818, 23⟩, ⟨-52608449442918820, 24⟩),
  (⟨24863619568261039, 10⟩, ⟨84847159977642062, 17⟩, ⟨-13848422873200146, 22⟩, ⟨-11664748650744923, 23⟩),
  (⟨24663223214700925, 10⟩, ⟨17418695069150925, 17⟩, ⟨-58775964514658863, 23⟩, ⟨-49507937405305840, 24⟩),
  (⟨24806043906962383, 10⟩, ⟨32906128015431024, 17⟩, ⟨-11558203750577758, 22⟩, ⟨-97356603592385308, 24⟩),
  (⟨24697606116876462, 10⟩, ⟨38662343805674759, 17⟩, ⟨-72452254101734791, 23⟩, ⟨-61027695428926620, 24⟩),
  (⟨24737493382490706, 10⟩, ⟨86785358880804675, 17⟩, ⟨-88318916562059377, 23⟩, ⟨-74392439647134270, 24⟩),
  (⟨24844747275201678, 10⟩, ⟨92275474347833319, 17⟩, ⟨-13097826430964444, 22⟩, ⟨-11032509231354664, 23⟩),
  (⟨24527519053421360, 10⟩, ⟨60383468837462562, 17⟩, ⟨-48027431829648521, 24⟩, ⟨-40454275967973583, 25⟩),
  (⟨24877501576113286, 10⟩, ⟨23834865048673903, 17⟩, ⟨-14400322744596184, 22⟩, ⟨-12129622762342989, 23⟩),
  (⟨24670802571193171, 10⟩, ⟨60072466836152194, 18⟩, ⟨-61790121491462607, 23⟩, ⟨-52046810160003870, 24⟩),
  (⟨24523297353286603, 10⟩, ⟨55964862008537131, 17⟩, ⟨-31234297603177124, 24⟩, ⟨-26309149724818636, 25⟩),
  (⟨24541380340037853, 10⟩, ⟨34014172331125048, 17⟩, ⟨-10314878128690280, 23⟩, ⟨-86883872507306056, 25⟩),
  (⟨24876063924821909, 10⟩, ⟨43661980327375216, 17⟩, ⟨-14343220507882716, 22⟩, ⟨-12081524632703477, 23⟩),
  (⟨24805409494221415, 10⟩, ⟨69812649665180282, 17⟩, ⟨-11533117430154863, 22⟩, ⟨-97145297492777808, 24⟩),
  (⟨24593243957925439, 10⟩, ⟨49356009067771967, 17⟩, ⟨-30943707318937938, 23⟩, ⟨-26064380868679910, 24⟩),
  (⟨24875387784952195, 10⟩, ⟨57793388873621165, 17⟩, ⟨-14316383948297208, 22⟩, ⟨-12058919768230317, 23⟩),
  (⟨24732301311194208, 10⟩, ⟨37382665192571596, 17⟩, ⟨-86251858824626835, 23⟩, ⟨-72651323768849689, 24⟩),
  (⟨24855727419536384, 10⟩, ⟨81176250672948314, 18⟩, ⟨-13534215615486944, 22⟩, ⟨-11400086839142013, 23⟩),
  (⟨24755470211547841, 10⟩, ⟨15878260811946021, 17⟩, ⟨-95466194612091498, 23⟩, ⟨-80412706557957251, 24⟩),
  (⟨24567262428397387, 10⟩, ⟨33309890831953515, 17⟩, ⟨-20609183759412858, 23⟩, ⟨-17359445956535308, 24⟩),
  (⟨24661386604086948, 10⟩, ⟨88852372380363143, 18⟩, ⟨-58045132180126036, 23⟩, ⟨-48892345610758579, 24⟩),
  (⟨24689895076312819, 10⟩, ⟨85855378500050739, 17⟩, ⟨-69387144319681202, 23⟩, ⟨-58445904309319315, 24⟩),
  (⟨24777375880405535, 10⟩, ⟨58797049381807298, 18⟩, ⟨-10417855073692322, 22⟩, ⟨-87751263827797164, 24⟩),
  (⟨24831192246266999, 10⟩, ⟨87254051248206155, 17⟩, ⟨-12558669166398633, 22⟩, ⟨-10578368421822173, 23⟩),
  (⟨24802277887737276, 10⟩, ⟨51625840968354464, 17⟩, ⟨-11408488676689365, 22⟩, ⟨-96095529517650436, 24⟩),
  (⟨24876339916841509, 10⟩, ⟨77323098672525359, 17⟩, ⟨-14354331689371893, 22⟩, ⟨-12090883759043769, 23⟩),
  (⟨24727512859429261, 10⟩, ⟨53220458879235644, 17⟩, ⟨-84347931465171973, 23⟩, ⟨-71047615223792439, 24⟩),
  (⟨24672345709370603, 10⟩, ⟨98771308959586190, 18⟩, ⟨-62404042703020793, 23⟩, ⟨-52563925840955942, 24⟩),
  (⟨24552782897860105, 10⟩, ⟨98102259167439609, 17⟩, ⟨-14852676910104063, 23⟩, ⟨-12510647929618772, 24⟩),
  (⟨24636059103440931, 10⟩, ⟨21098950495407642, 17⟩, ⟨-47971865867047556, 23⟩, ⟨-40407471866653764, 24⟩),
  (⟨24585483917850624, 10⟩, ⟨31717454762333042, 17⟩, ⟨-27856529877228338, 23⟩, ⟨-23464001805481165, 24⟩),
  (⟨24591728203238328, 10⟩, ⟨20759278543426629, 17⟩, ⟨-30339694123360586, 23⟩, ⟨-25555610868467247, 24⟩),
  (⟨24752812975762365, 10⟩, ⟨10584580290217216, 17⟩, ⟨-94409095940046809, 23⟩, ⟨-79522295395520817, 24⟩),
  (⟨24758508646285259, 10⟩, ⟨92127111020066899, 17⟩, ⟨-96677733403460780, 23⟩, ⟨-81433205109405966, 24⟩),
  (⟨24830670782135222, 10⟩, ⟨70280389460264270, 17⟩, ⟨-12537860957516065, 22⟩, ⟨-10560841333812963, 23⟩),
  (⟨24671396357690501, 10⟩, ⟨65703685592496652, 17⟩, ⟨-62028668309488991, 23⟩, ⟨-52247741970015083, 24⟩),
  (⟨24520203255919935, 10⟩, ⟨81770640553925333, 17⟩, ⟨-18938108499634119, 24⟩, ⟨-15951872468905893, 25⟩),
  (⟨24600805281387283, 10⟩, ⟨48795647143650300, 17⟩, ⟨-33951123434700142, 23⟩, ⟨-28597575688030420, 24⟩),
  (⟨24623565208624774, 10⟩, ⟨58017126158817012, 17⟩, ⟨-43004016474541199, 23⟩, ⟨-36222972662019680, 24⟩),
  (⟨24853256479698694, 10⟩, ⟨74066728769859513, 17⟩, ⟨-13436198838245694, 22⟩, ⟨-11317525735935968, 23⟩),
  (⟨24843144419858344, 10⟩, ⟨94568250255247521, 17⟩, ⟨-13034083632484566, 22⟩, ⟨-10978817650055413, 23⟩),
  (⟨24668922780358172, 10⟩, ⟨92427504835344854, 17⟩, ⟨-61045891355568088, 23⟩, ⟨-51419933182530897, 24⟩),
  (⟨24739080916335159, 10⟩, ⟨68920598344382955, 17⟩, ⟨-88949631219111888, 23⟩, ⟨-74923700716515388, 24⟩),
  (⟨24554952967197904, 10⟩, ⟨70418433845717665, 18⟩, ⟨-15712177768462460, 23⟩, ⟨-13234619285032286, 24⟩),
  (⟨24604798818571279, 10⟩, ⟨31373508931374505, 17⟩, ⟨-35538818704330789, 23⟩, ⟨-29934916872928719, 24⟩),
  (⟨24606452242263271, 10⟩, ⟨27877015920246262, 17⟩, ⟨-36196311851534207, 23⟩, ⟨-30488733893967069, 24⟩),
  (⟨24814777103693881, 10⟩, ⟨69697214794642726, 17⟩, ⟨-11905703974072282, 22⟩, ⟨-10028365369784227, 23⟩),
  (⟨24710792644521338, 10⟩, ⟨72624018672844792, 17⟩, ⟨-77698410229528730, 23⟩, ⟨-65446616859446176, 24⟩),
  (⟨24683305539116547, 10⟩, ⟨33352015656782796, 17⟩, ⟨-66764135611094973, 23⟩, ⟨-56236502013149905, 24⟩),
  (⟨24776657755731656, 10⟩, ⟨54552585709680124, 17⟩, ⟨-10389485996975515, 22⟩, ⟨-87512306545523769, 24⟩),
  (⟨24842909976937231, 10⟩, ⟨24796957100016292, 17⟩, ⟨-13024481399030102, 22⟩, ⟨-10970729534841306, 23⟩),
  (⟨24847214639043473, 10⟩, ⟨84879470475520957, 17⟩, ⟨-13195933865572178, 22⟩, ⟨-11115146696714224, 23⟩),
  (⟨24667501682420238, 10⟩, ⟨54044471377459324, 17⟩, ⟨-60479137665383783, 23⟩, ⟨-50942547461180931, 24⟩),
  (⟨24588351857003286, 10⟩, ⟨80431290138051503, 17⟩, ⟨-28999160631800811, 23⟩, ⟨-24426458012569744, 24⟩),
  (⟨24522973522560801, 10⟩, ⟨78951549929136944, 17⟩, ⟨-29955437015988213, 24⟩, ⟨-25231944945220837, 25⟩),
  (⟨24644189136436004, 10⟩, ⟨65072370227312448, 17⟩, ⟨-51207251618010872, 23⟩, ⟨-43132689165312671, 24⟩),
  (⟨24632722420493341, 10⟩, ⟨40216980853494755, 17⟩, ⟨-46645495046133746, 23⟩, ⟨-39290248455345089, 24⟩),
  (⟨24701419367150776, 10⟩, ⟨85801595986676582, 18⟩, ⟨-73967738572628089, 23⟩, ⟨-62304212300121231, 24⟩),
  (⟨24537156611819519, 10⟩, ⟨76045586525300146, 17⟩, ⟨-86366055583898888, 24⟩, ⟨-72747513530372359, 25⟩),
  (⟨24880170516952365, 10⟩, ⟨22920835037459997, 17⟩, ⟨-14506473477704388, 22⟩, ⟨-12219035227006798, 23⟩),
  (⟨24854182079569637, 10⟩, ⟨13876098537551940, 17⟩, ⟨-13472774216231928, 22⟩, ⟨-11348333763313659, 23⟩),
  (⟨24818444675998469, 10⟩, ⟨95289317729040834, 17⟩, ⟨-12051679668932309, 22⟩, ⟨-10151323038339778, 23⟩),
  (⟨24678683232782246, 10⟩, ⟨39969346441216269, 17⟩, ⟨-64925924148306281, 23⟩, ⟨-54688147021633589, 24⟩),
  (⟨24571973860196644, 10⟩, ⟨68369895644238154, 17⟩, ⟨-22484501629488571, 23⟩, ⟨-18939056269924628, 24⟩),
  (⟨24670514716704814, 10⟩, ⟨52766031673056490, 17⟩, ⟨-61677490120690429, 23⟩, ⟨-51951938950316248, 24⟩),
  (⟨24610605697585586, 10⟩, ⟨29706858849686046, 17⟩, ⟨-37848378638639346, 23⟩, ⟨-31880296240255529, 24⟩),
  (⟨24834192139540846, 10⟩, ⟨92539096337641225, 17⟩, ⟨-12678007847367595, 22⟩, ⟨-10678889306442785, 23⟩),
  (⟨24652675709396382, 10⟩, ⟨78737920621435942, 17⟩, ⟨-54583241997835122, 23⟩, ⟨-45976339997509038, 24⟩),
  (⟨24595707043964718, 10⟩, ⟨21746561179744728, 17⟩, ⟨-31922276244311923, 23⟩, ⟨-26888645166241710, 24⟩),
  (⟨24825657847889704, 10⟩, ⟨17584460647619427, 17⟩, ⟨-12338267076672984, 22⟩, ⟨-10392720207416188, 23⟩)]

/-- Entries 200 to 299. -/
def Pr_2 : List (Dec × Dec × Dec × Dec) := [
  (⟨24577077002137816, 10⟩, ⟨13873838823675666, 17⟩, ⟨-24512056167625785, 23⟩, ⟨-20646897969994152, 24⟩),
  (⟨24613982537220521, 10⟩, ⟨48305227106917503, 17⟩, ⟨-39192221498530310, 23⟩, ⟨-33012236630165355, 24⟩),
  (⟨24649527021636334, 10⟩, ⟨73750577207542467, 17⟩, ⟨-53330685557014712, 23⟩, ⟨-44921291622194264, 24⟩),
  (⟨24819625851890491, 10⟩, ⟨44936875483182948, 17⟩, ⟨-12098459449880015, 22⟩, ⟨-10190726397963342, 23⟩),
  (⟨24681854690645831, 10⟩, ⟨40853489432957479, 17⟩, ⟨-66187373962346167, 23⟩, ⟨-55750686427819692, 24⟩),
  (⟨24810342142384867, 10⟩, ⟨22457515344982226, 17⟩, ⟨-11729120072125427, 22⟩, ⟨-98796259175853748, 24⟩),
  (⟨24637333565574898, 10⟩, ⟨13720380615776040, 17⟩, ⟨-48478476558349072, 23⟩, ⟨-40834198175629248, 24⟩),
  (⟨24705543784255097, 10⟩, ⟨73376882901327378, 17⟩, ⟨-75610760150796703, 23⟩, ⟨-63688155721879145, 24⟩),
  (⟨24582825422720746, 10⟩, ⟨95042256604904141, 17⟩, ⟨-26801659543287896, 23⟩, ⟨-22575467607962171, 24⟩),
  (⟨24875398152854373, 10⟩, ⟨48648086667706791, 17⟩, ⟨-14316759946414595, 22⟩, ⟨-12059236477473865, 23⟩),
  (⟨24519345784615241, 10⟩, ⟨75453127750974625, 17⟩, ⟨-15525092117265019, 24⟩, ⟨-13077034041040179, 25⟩),
  (⟨24533896464608954, 10⟩, ⟨79349916696531586, 17⟩, ⟨-73400470637163164, 24⟩, ⟨-61826393421725279, 25⟩),
  (⟨24586256788690616, 10⟩, ⟨68759005999818690, 17⟩, ⟨-28165404570310526, 23⟩, ⟨-23724171912385701, 24⟩),
  (⟨24642349261391843, 10⟩, ⟨16642491243045843, 18⟩, ⟨-50472938306926186, 23⟩, ⟨-42514165288397019, 24⟩),
  (⟨24781197382057901, 10⟩, ⟨11343948344322252, 17⟩, ⟨-10569873093080293, 22⟩, ⟨-89031735981760900, 24⟩),
  (⟨24709382842413764, 10⟩, ⟨28662237376212019, 17⟩, ⟨-77135927450401235, 23⟩, ⟨-64972828594965015, 24⟩),
  (⟨24807554405084262, 10⟩, ⟨83222933969892310, 17⟩, ⟨-11618482385035481, 22⟩, ⟨-97864340196327558, 24⟩),
  (⟨24733237195744854, 10⟩, ⟨12416571137509380, 17⟩, ⟨-86623104249332249, 23⟩, ⟨-72964029743138510, 24⟩),
  (⟨24515925127418879, 10⟩, ⟨29770357648077250, 17⟩, ⟨-19016111466137351, 25⟩, ⟨-16017575618398354, 26⟩),
  (⟨24660600533581628, 10⟩, ⟨54723803875126464, 17⟩, ⟨-57734303927517371, 23⟩, ⟨-48630529989338836, 24⟩),
  (⟨24577750474003549, 10⟩, ⟨36048207187506254, 17⟩, ⟨-24780804617244400, 23⟩, ⟨-20873269098589974, 24⟩),
  (⟨24712686917303395, 10⟩, ⟨41248247964561058, 17⟩, ⟨-78450589748172264, 23⟩, ⟨-66080189729479985, 24⟩),
  (⟨24515976948595429, 10⟩, ⟨63524786422709989, 17⟩, ⟨-21211500062457019, 25⟩, ⟨-17866786636956952, 26⟩),
  (⟨24638522416647379, 10⟩, ⟨38021448173248973, 17⟩, ⟨-48952296358014674, 23⟩, ⟨-41233304190765564, 24⟩),
  (⟨24596099510933021, 10⟩, ⟨98083342456001799, 17⟩, ⟨-32081412148951272, 23⟩, ⟨-27022687890523274, 24⟩),
  (⟨24605927903814511, 10⟩, ⟨61280088833889379, 17⟩, ⟨-35989090215433948, 23⟩, ⟨-30314187787003258, 24⟩),
  (⟨24777539902613694, 10⟩, ⟨73989264036347779, 17⟩, ⟨-10424649786559954, 22⟩, ⟨-87808496783838877, 24⟩),
  (⟨24630223128397595, 10⟩, ⟨91710194861510841, 17⟩, ⟨-45653475487464269, 23⟩, ⟨-38454654473672555, 24⟩),
  (⟨24567626406220682, 10⟩, ⟨46730477056686359, 17⟩, ⟨-20754485973768980, 23⟩, ⟨-17481836341662907, 24⟩),
  (⟨24691211116461772, 10⟩, ⟨83599858864174470, 17⟩, ⟨-69910496001559123, 23⟩, ⟨-58886731823105358, 24⟩),
  (⟨24761215256857881, 10⟩, ⟨47156211710219231, 17⟩, ⟨-97752471165928272, 23⟩, ⟨-82338473960554964, 24⟩),
  (⟨24526204295851164, 10⟩, ⟨36236506462241402, 17⟩, ⟨-42788515020717679, 24⟩, ⟨-36041452331817588, 25⟩),
  (⟨24836006093765846, 10⟩, ⟨44383836009612343, 17⟩, ⟨-12749964472793479, 22⟩, ⟨-10739499525890451, 23⟩),
  (⟨24565402516097510, 10⟩, ⟨60424345243645150, 17⟩, ⟨-19870501278630743, 23⟩, ⟨-16737241857922238, 24⟩),
  (⟨24570007021539756, 10⟩, ⟨59089561623019582, 17⟩, ⟨-21701842728103876, 23⟩, ⟨-18279810127059628, 24⟩),
  (⟨24757832270479770, 10⟩, ⟨25733700616894895, 17⟩, ⟨-96406071174981379, 23⟩, ⟨-81204379658152172, 24⟩),
  (⟨24715907887865892, 10⟩, ⟨95735463081578454, 17⟩, ⟨-79733864734322430, 23⟩, ⟨-67161112828109382, 24⟩),
  (⟨24781663379138228, 10⟩, ⟨43533503344948288, 17⟩, ⟨-10588535676857396, 22⟩, ⟨-89188933917530666, 24⟩),
  (⟨24577417235735203, 10⟩, ⟨59162938071155358, 17⟩, ⟨-24649181898304750, 23⟩, ⟨-20762401171807504, 24⟩),
  (⟨24700760298471604, 10⟩, ⟨85429754812268444, 19⟩, ⟨-73705293516313003, 23⟩, ⟨-62083150620782244, 24⟩),
  (⟨24872049892721074, 10⟩, ⟨99002785782651803, 17⟩, ⟨-14183786634332356, 22⟩, ⟨-11947230924430122, 23⟩),
  (⟨24783677745669112, 10⟩, ⟨49823821871082619, 17⟩, ⟨-10668680046675637, 22⟩, ⟨-89864002795959624, 24⟩),
  (⟨24636719401445063, 10⟩, ⟨19680418535714317, 17⟩, ⟨-48234436165845399, 23⟩, ⟨-40628639039744288, 24⟩),
  (⟨24667900263409154, 10⟩, ⟨50945604308695847, 17⟩, ⟨-60637545887682791, 23⟩, ⟨-51075977246958566, 24⟩),
  (⟨24821615056450954, 10⟩, ⟨14649781909200466, 17⟩, ⟨-12177457545398846, 22⟩, ⟨-10257267760582907, 23⟩),
  (⟨24876281272962634, 10⟩, ⟨66221878131147227, 17⟩, ⟨-14351955035627750, 22⟩, ⟨-12088881865484543, 23⟩),
  (⟨24668876432000282, 10⟩, ⟨33984389648976321, 17⟩, ⟨-61025132259735689, 23⟩, ⟨-51402447463231386, 24⟩),
  (⟨24558103091132445, 10⟩, ⟨82976811157475117, 17⟩, ⟨-16968127301440454, 23⟩, ⟨-14292525716280895, 24⟩),
  (⟨24540085071371826, 10⟩, ⟨20335662165859625, 17⟩, ⟨-97991543302681537, 24⟩, ⟨-82539848254953500, 25⟩),
  (⟨24776604857767210, 10⟩, ⟨93096694093578014, 18⟩, ⟨-10387202085977471, 22⟩, ⟨-87493068796953550, 24⟩),
  (⟨24555695362319467, 10⟩, ⟨21761855315862166, 18⟩, ⟨-16007264242919906, 23⟩, ⟨-13483175354289950, 24⟩),
  (⟨24862451429879731, 10⟩, ⟨32192127119579250, 17⟩, ⟨-13801751944185611, 22⟩, ⟨-11625436978850152, 23⟩),
  (⟨24792747986955796, 10⟩, ⟨46052822897373691, 17⟩, ⟨-11029424538142504, 22⟩, ⟨-92902611494315630, 24⟩),
  (⟨24553067705075494, 10⟩, ⟨26878968248861568, 17⟩, ⟨-14963123209003639, 23⟩, ⟨-12603678618229661, 24⟩),
  (⟨24644923504974646, 10⟩, ⟨46101437321363592, 17⟩, ⟨-51498584579150829, 23⟩, ⟨-43378083590114027, 24⟩),
  (⟨24543136965732509, 10⟩, ⟨45247090733924544, 17⟩, ⟨-11014004654954768, 23⟩, ⟨-92772727345589296, 25⟩),
  (⟨24619818385843500, 10⟩, ⟨51044808176805689, 17⟩, ⟨-41513479049132924, 23⟩, ⟨-34967469087272318, 24⟩),
  (⟨24804610059186085, 10⟩, ⟨24647252778131001, 17⟩, ⟨-11501141085622968, 22⟩, ⟨-96875955615259040, 24⟩),
  (⟨24627187826635740, 10⟩, ⟨28284871077893559, 17⟩, ⟨-44443692847339528, 23⟩, ⟨-37435635156577658, 24⟩),
  (⟨24804746453638277, 10⟩, ⟨41079914347863955, 17⟩, ⟨-11506631393469204, 22⟩, ⟨-96922201358639309, 24⟩),
  (⟨24681866532270852, 10⟩, ⟨69196850898033457, 17⟩, ⟨-66193211174502168, 23⟩, ⟨-55755603205220574, 24⟩),
  (⟨24555868374134861, 10⟩, ⟨27475450662817769, 17⟩, ⟨-16077084159857408, 23⟩, ⟨-13541985789914931, 24⟩),
  (⟨24555287729189675, 10⟩, ⟨84524650304592763, 17⟩, ⟨-15848407695964372, 23⟩, ⟨-13349367937465065, 24⟩),
  (⟨24782759668351514, 10⟩, ⟨96816194410118461, 17⟩, ⟨-10632351375779936, 22⟩, ⟨-89558000575566683, 24⟩),
  (⟨24537477067048373, 10⟩, ⟨30165769867619996, 17⟩, ⟨-87622384974408854, 24⟩, ⟨-73805739921711300, 25⟩),
  (⟨24580863854276952, 10⟩, ⟨61342403740447160, 17⟩, ⟨-26020125553622571, 23⟩, ⟨-21917168996276775, 24⟩),
  (⟨24778488486718670, 10⟩, ⟨47014797889328130, 17⟩, ⟨-10462271452610163, 22⟩, ⟨-88125390109754865, 24⟩),
  (⟨24627645441333340, 10⟩, ⟨64292586933437501, 17⟩, ⟨-44627136542263091, 23⟩, ⟨-37590152722400145, 24⟩),
  (⟨24756955786083378, 10⟩, ⟨33932223337718781, 17⟩, ⟨-96057784636000516, 23⟩, ⟨-80911012321463462, 24⟩),
  (⟨24718531579624531, 10⟩, ⟨60132360597914536, 17⟩, ⟨-80775994988381811, 23⟩, ⟨-68038915852052624, 24⟩),
  (⟨24872642244961662, 10⟩, ⟨45836730908022938, 17⟩, ⟨-14207135371126667, 22⟩, ⟨-11966897939837711, 23⟩),
  (⟨24672620416977596, 10⟩, ⟨28125958170231447, 17⟩, ⟨-62514030648070533, 23⟩, ⟨-52656570450769231, 24⟩),
  (⟨24779438772997046, 10⟩, ⟨99922246591823738, 17⟩, ⟨-10500278542926947, 22⟩, ⟨-88445529926072446, 24⟩),
  (⟨24720051150173550, 10⟩, ⟨68649394466754898, 17⟩, ⟨-81380727254448121, 23⟩, ⟨-68548291536868695, 24⟩),
  (⟨24585156345345732, 10⟩, ⟨78105231960485022, 17⟩, ⟨-27728086318662223, 23⟩, ⟨-23355811736460350, 24⟩),
  (⟨24702339181957734, 10⟩, ⟨72467153250334548, 17⟩, ⟨-74336126462460023, 23⟩, ⟨-62614511326964493, 24⟩),
  (⟨24567142077486962, 10⟩, ⟨86674866396256212, 18⟩, ⟨-20560335300137871, 23⟩, ⟨-17318300115984641, 24⟩),
  (⟨24766590342397592, 10⟩, ⟨48127382397914409, 17⟩, ⟨-99890394616740463, 23⟩, ⟨-84139281165577468, 24⟩),
  (⟨24839835539728403, 10⟩, ⟨22057572013404803, 17⟩, ⟨-12902187935047571, 22⟩, ⟨-10867719789107313, 23⟩),
  (⟨24635251488078651, 10⟩, ⟨17353570565847021, 17⟩, ⟨-47650496219518584, 23⟩, ⟨-40136777059257428, 24⟩),
  (⟨24861071885123053, 10⟩, ⟨71250532441379666, 17⟩, ⟨-13747037325418776, 22⟩, ⟨-11579349978093438, 23⟩),
  (⟨24740324659842933, 10⟩, ⟨84473561562468569, 17⟩, ⟨-89444935971813843, 23⟩, ⟨-75340903852113509, 24⟩),
  (⟨24879211195094343, 10⟩, ⟨45490677541097957, 17⟩, ⟨-14468407209667837, 22⟩, ⟨-12186971399032743, 23⟩),
  (⟨24516807842700235, 10⟩, ⟨95547501062838081, 17⟩, ⟨-54386822966424536, 25⟩, ⟨-45810893097699152, 26⟩),
  (⟨24750460608840995, 10⟩, ⟨61761821860112331, 17⟩, ⟨-93475501786312458, 23⟩, ⟨-78735914069298389, 24⟩),
  (⟨24663126371767148, 10⟩, ⟨67923095938422062, 17⟩, ⟨-58739454997234258, 23⟩, ⟨-49477184853335308, 24⟩),
  (⟨24531266080477238, 10⟩, ⟨90549977073855925, 17⟩, ⟨-62942843814792249, 24⟩, ⟨-53017766657278699, 25⟩),
  (⟨24797431599219968, 10⟩, ⟨98568897911928610, 17⟩, ⟨-11215919261559423, 22⟩, ⟨-94473486454783852, 24⟩),
  (⟨24636364558663280, 10⟩, ⟨13955546772444827, 17⟩, ⟨-48093073409116247, 23⟩, ⟨-40509566922946565, 24⟩),
  (⟨24752669696080931, 10⟩, ⟨58633818104744950, 17⟩, ⟨-94354019033709989, 23⟩, ⟨-79475903234134487, 24⟩),
  (⟨24636336779588144, 10⟩, ⟨80409051277159183, 17⟩, ⟨-48084667688140410, 23⟩, ⟨-40502486649379732, 24⟩),
  (⟨24673188704713201, 10⟩, ⟨93917128804512895, 17⟩, ⟨-62742678008335320, 23⟩, ⟨-52849163788766333, 24⟩),
  (⟨24655876616598023, 10⟩, ⟨86694625438522355, 18⟩, ⟨-55853582915772408, 23⟩, ⟨-47046368523080103, 24⟩),
  (⟨24779490618721284, 10⟩, ⟨51259103080096224, 17⟩, ⟨-10502147100490770, 22⟩, ⟨-88461269086062727, 24⟩),
  (⟨24674863759392505, 10⟩, ⟨58976634836701902, 17⟩, ⟨-63407524004894068, 23⟩, ⟨-53409174232722376, 24⟩),
  (⟨24720300313283796, 10⟩, ⟨75912403514714244, 17⟩, ⟨-81480118189849545, 23⟩, ⟨-68632010115528185, 24⟩),
  (⟨24718444990480109, 10⟩, ⟨27108152512578187, 17⟩, ⟨-80740241545641858, 23⟩, ⟨-68008800153912914, 24⟩),
  (⟨24587148319516070, 10⟩, ⟨73533058588873090, 17⟩, ⟨-28520191642030394, 23⟩, ⟨-24023014752038947, 24⟩),
  (⟨24608867681336738, 10⟩, ⟨43229789729296386, 17⟩, ⟨-37157638465834715, 23⟩, ⟨-31298474716424767, 24⟩),
  (⟨24824298324862425, 10⟩, ⟨96600365892176954, 17⟩, ⟨-12284507728372284, 22⟩, ⟨-10347437846291220, 23⟩)]

/-- Entries 300 to 399. -/
def Pr_3 : List (Dec × Dec × Dec × Dec) := [
  (⟨24700334004229540, 10⟩, ⟨68346249114856938, 17⟩, ⟨-73538423801974103, 23⟩, ⟨-61942593584576209, 24⟩),
  (⟨24731059606496356, 10⟩, ⟨78992838399411136, 17⟩, ⟨-85759638592320235, 23⟩, ⟨-72236718774242029, 24⟩),
  (⟨24789950606698808, 10⟩, ⟨89592312129011287, 17⟩, ⟨-10918334798053092, 22⟩, ⟨-91966884799886533, 24⟩),
  (⟨24728720597255598, 10⟩, ⟨26243188204503853, 17⟩, ⟨-84827223733342306, 23⟩, ⟨-71451330786903364, 24⟩),
  (⟨24654652781604961, 10⟩, ⟨58553158019134710, 17⟩, ⟨-55368799245013337, 23⟩, ⟨-46638027463511976, 24⟩),
  (⟨24788343087425842, 10⟩, ⟨44276417653664468, 17⟩, ⟨-10854217138008372, 22⟩, ⟨-91426811467822879, 24⟩),
  (⟨24577608760153814, 10⟩, ⟨46917727969618461, 18⟩, ⟨-24723192225616469, 23⟩, ⟨-20824741257285490, 24⟩),
  (⟨24613483526506284, 10⟩, ⟨50906462893448079, 17⟩, ⟨-38993848596257054, 23⟩, ⟨-32845143953596796, 24⟩),
  (⟨24552794080563514, 10⟩, ⟨11458657337470868, 18⟩, ⟨-14853268374495231, 23⟩, ⟨-12511146129559806, 24⟩),
  (⟨24581842867620834, 10⟩, ⟨38675589248856979, 17⟩, ⟨-26408616462388909, 23⟩, ⟨-22244401118327915, 24⟩),
  (⟨24709584731457611, 10⟩, ⟨13864312431173142, 18⟩, ⟨-77215141867832521, 23⟩, ⟨-65039552169000260, 24⟩),
  (⟨24722450229087221, 10⟩, ⟨35095953967446081, 17⟩, ⟨-82333601589740950, 23⟩, ⟨-69350912869182761, 24⟩),
  (⟨24576962097339123, 10⟩, ⟨87943803414786470, 18⟩, ⟨-24466151939093919, 23⟩, ⟨-20608232102210261, 24⟩),
  (⟨24541538391126082, 10⟩, ⟨52139438296646623, 17⟩, ⟨-10378462232318033, 23⟩, ⟨-87419451608111841, 25⟩),
  (⟨24678035235541342, 10⟩, ⟨15751875351159128, 17⟩, ⟨-64667226705611516, 23⟩, ⟨-54470242017341380, 24⟩),
  (⟨24691977276509814, 10⟩, ⟨59059140640084884, 18⟩, ⟨-70212138060379374, 23⟩, ⟨-59140809766193064, 24⟩),
  (⟨24550503192408802, 10⟩, ⟨95357907537776498, 17⟩, ⟨-13945838430762682, 23⟩, ⟨-11746803336974806, 24⟩),
  (⟨24691462623099019, 10⟩, ⟨75585021540958397, 17⟩, ⟨-70010211390069885, 23⟩, ⟨-58970723693821582, 24⟩),
  (⟨24830943515065275, 10⟩, ⟨40362737955219130, 17⟩, ⟨-12548589634082381, 22⟩, ⟨-10569878270123118, 23⟩),
  (⟨24791347562044556, 10⟩, ⟨86068796301031569, 17⟩, ⟨-10973883241396398, 22⟩, ⟨-92434778245568175, 24⟩),
  (⟨24583949008623622, 10⟩, ⟨59247658376701606, 17⟩, ⟨-27247130551913916, 23⟩, ⟨-22950694981822362, 24⟩),
  (⟨24809025148047842, 10⟩, ⟨12933792057476357, 18⟩, ⟨-11676653802826602, 22⟩, ⟨-98354327376386929, 24⟩),
  (⟨24727584632543260, 10⟩, ⟨83122296646464511, 17⟩, ⟨-84377667795596834, 23⟩, ⟨-71072662611742489, 24⟩),
  (⟨24811241886401381, 10⟩, ⟨71379817550207059, 18⟩, ⟨-11764845530332876, 22⟩, ⟨-99097180439046143, 24⟩),
  (⟨24673535398071269, 10⟩, ⟨25109635595275437, 17⟩, ⟨-62877834967923386, 23⟩, ⟨-52963008663119845, 24⟩),
  (⟨24831580402077138, 10⟩, ⟨93286246139296636, 17⟩, ⟨-12574131655754391, 22⟩, ⟨-10591392724553339, 23⟩),
  (⟨24693653447312443, 10⟩, ⟨10396084718234988, 17⟩, ⟨-70878996297484948, 23⟩, ⟨-59702515152628736, 24⟩),
  (⟨24797851170736048, 10⟩, ⟨86598538399233749, 17⟩, ⟨-11232559674907276, 22⟩, ⟨-94613651324765436, 24⟩),
  (⟨24865263385739895, 10⟩, ⟨37709705830734008, 17⟩, ⟨-13913616533281972, 22⟩, ⟨-11719662316036607, 23⟩),
  (⟨24750868279174818, 10⟩, ⟨84007893535902978, 17⟩, ⟨-93638533270574329, 23⟩, ⟨-78873238102763080, 24⟩),
  (⟨24603668957678247, 10⟩, ⟨34869774012359234, 17⟩, ⟨-35089567250222264, 23⟩, ⟨-29556505169217746, 24⟩),
  (⟨24856474476682246, 10⟩, ⟨34357809812243367, 17⟩, ⟨-13564033410419840, 22⟩, ⟨-11425202845953502, 23⟩),
  (⟨24568343119777762, 10⟩, ⟨46944674111512708, 17⟩, ⟨-21039559916875850, 23⟩, ⟨-17721958695209291, 24⟩),
  (⟨24712318449452077, 10⟩, ⟨71586770966747293, 17⟩, ⟨-78305242144916459, 23⟩, ⟨-65957761112554354, 24⟩),
  (⟨24561831859682300, 10⟩, ⟨21152662657988319, 17⟩, ⟨-18448747534067811, 23⟩, ⟨-15539675880522993, 24⟩),
  (⟨24666279435823034, 10⟩, ⟨81935928423798710, 18⟩, ⟨-59991178018770369, 23⟩, ⟨-50531531226222725, 24⟩),
  (⟨24842393810780118, 10⟩, ⟨42916912318110101, 17⟩, ⟨-13004023492865731, 22⟩, ⟨-10953497512428866, 23⟩),
  (⟨24804050543129239, 10⟩, ⟨70586994940051584, 17⟩, ⟨-11479069632249542, 22⟩, ⟨-96690044224254423, 24⟩),
  (⟨24689428051780923, 10⟩, ⟨72650242376778817, 17⟩, ⟨-69200864909324862, 23⟩, ⟨-58288998174916048, 24⟩),
  (⟨24712556303410740, 10⟩, ⟨91743974226177361, 17⟩, ⟨-78400647835214561, 23⟩, ⟨-66038122855358425, 24⟩),
  (⟨24755223376298659, 10⟩, ⟨57680014679692371, 17⟩, ⟨-95369681059743155, 23⟩, ⟨-80331411645183277, 24⟩),
  (⟨24594882393095247, 10⟩, ⟨10756093051366933, 18⟩, ⟨-31593457702373839, 23⟩, ⟨-26611676035638765, 24⟩),
  (⟨24854394866141374, 10⟩, ⟨60535518750911843, 17⟩, ⟨-13481423165640492, 22⟩, ⟨-11355618912089638, 23⟩),
  (⟨24693122586883735, 10⟩, ⟨82037425661064323, 17⟩, ⟨-70670701498805819, 23⟩, ⟨-59527065103616176, 24⟩),
  (⟨24656863517978378, 10⟩, ⟨70726646037370877, 17⟩, ⟨-56248581019289725, 23⟩, ⟨-47379081759615302, 24⟩),
  (⟨24544563223431162, 10⟩, ⟨51210254654353538, 17⟩, ⟨-11581521119869956, 23⟩, ⟨-97553009532961008, 25⟩),
  (⟨24531056688963119, 10⟩, ⟨12733630265950457, 17⟩, ⟨-62079060019241256, 24⟩, ⟨-52290187715189359, 25⟩),
  (⟨24556640547114452, 10⟩, ⟨66729789373569437, 18⟩, ⟨-16383380599823369, 23⟩, ⟨-13799984192876414, 24⟩),
  (⟨24686562521427507, 10⟩, ⟨34914532976777990, 17⟩, ⟨-68059628873438230, 23⟩, ⟨-57327716761741392, 24⟩),
  (⟨24711432147033471, 10⟩, ⟨84303561365165125, 17⟩, ⟨-77953230298319495, 23⟩, ⟨-65661255889523912, 24⟩),
  (⟨24530317333514532, 10⟩, ⟨92481574179629200, 17⟩, ⟨-59170068917138385, 24⟩, ⟨-49839897863126071, 25⟩),
  (⟨24605143315806556, 10⟩, ⟨28623923767041237, 17⟩, ⟨-35675729563881135, 23⟩, ⟨-30050239085344897, 24⟩),
  (⟨24843582166752545, 10⟩, ⟨33294838421805906, 17⟩, ⟨-13051250854942806, 22⟩, ⟨-10993277876814830, 23⟩),
  (⟨24817002936244709, 10⟩, ⟨48204787226611467, 17⟩, ⟨-11994148683676888, 22⟩, ⟨-10102863766928237, 23⟩),
  (⟨24833628933234955, 10⟩, ⟨49834477099935315, 17⟩, ⟨-12655437044342498, 22⟩, ⟨-10659877557123464, 23⟩),
  (⟨24600277380436086, 10⟩, ⟨18561235257991204, 17⟩, ⟨-33739953734697768, 23⟩, ⟨-28419704063533176, 24⟩),
  (⟨24541650940295476, 10⟩, ⟨53677274602066249, 17⟩, ⟨-10423288669228684, 23⟩, ⟨-87797031874297345, 25⟩),
  (⟨24795197501011873, 10⟩, ⟨96523179488413624, 17⟩, ⟨-11127052173416511, 22⟩, ⟨-93724944721185605, 24⟩),
  (⟨24744677305790079, 10⟩, ⟨90477916411810799, 18⟩, ⟨-91173156012771734, 23⟩, ⟨-76796611305268095, 24⟩),
  (⟨24606452327460181, 10⟩, ⟨19424074111624101, 17⟩, ⟨-36196009530685761, 23⟩, ⟨-30488479244268597, 24⟩),
  (⟨24866954954230660, 10⟩, ⟨65388687049859617, 17⟩, ⟨-13981007015255586, 22⟩, ⟨-11776426399634606, 23⟩),
  (⟨24742297746250792, 10⟩, ⟨53470624353690399, 17⟩, ⟨-90228477626138840, 23⟩, ⟨-76000893551935393, 24⟩),
  (⟨24635404272091039, 10⟩, ⟨35196299136666997, 18⟩, ⟨-47710714253592730, 23⟩, ⟨-40187499674976817, 24⟩),
  (⟨24771263392123030, 10⟩, ⟨70122078119730546, 17⟩, ⟨-10174992675371771, 22⟩, ⟨-85705594902847796, 24⟩),
  (⟨24565699209780330, 10⟩, ⟨91242886943604129, 17⟩, ⟨-19989733905953937, 23⟩, ⟨-16837673411856410, 24⟩),
  (⟨24523495863682861, 10⟩, ⟨24248765205101197, 17⟩, ⟨-32011237475441374, 24⟩, ⟨-26963578637748709, 25⟩),
  (⟨24869247322055968, 10⟩, ⟨56320822397671277, 17⟩, ⟨-14072147514181430, 22⟩, ⟨-11853195503351886, 23⟩),
  (⟨24792678562536528, 10⟩, ⟨55077933882542407, 17⟩, ⟨-11026699149932945, 22⟩, ⟨-92879655112400307, 24⟩),
  (⟨24572739596103495, 10⟩, ⟨92235770576385390, 17⟩, ⟨-22790014427585702, 23⟩, ⟨-19196394598774005, 24⟩),
  (⟨24659152472237283, 10⟩, ⟨46211364665070198, 17⟩, ⟨-57158013892662060, 23⟩, ⟨-48145111651953621, 24⟩),
  (⟨24572796002903157, 10⟩, ⟨61235754398571918, 17⟩, ⟨-22811216656589503, 23⟩, ⟨-19214253576249591, 24⟩),
  (⟨24799527093330435, 10⟩, ⟨27185007831371044, 17⟩, ⟨-11298981456011839, 22⟩, ⟨-95173132637990580, 24⟩),
  (⟨24630418762792018, 10⟩, ⟨84026077481144990, 17⟩, ⟨-45730981421820291, 23⟩, ⟨-38519938965017321, 24⟩),
  (⟨24875660310025485, 10⟩, ⟨83022298380862380, 17⟩, ⟨-14327323697332646, 22⟩, ⟨-12068134494265841, 23⟩),
  (⟨24725727128476729, 10⟩, ⟨63880505548708255, 17⟩, ⟨-83638099392940746, 23⟩, ⟨-70449712286928890, 24⟩),
  (⟨24563292249426255, 10⟩, ⟨41688803704676758, 18⟩, ⟨-19028926976779364, 23⟩, ⟨-16028370328513637, 24⟩),
  (⟨24662762746923692, 10⟩, ⟨59970965847587387, 17⟩, ⟨-58594510679168719, 23⟩, ⟨-49355095929992262, 24⟩),
  (⟨24633309865943152, 10⟩, ⟨24010024574432320, 17⟩, ⟨-46878500798683113, 23⟩, ⟨-39486512937051948, 24⟩),
  (⟨24678110719525921, 10⟩, ⟨72065642445455180, 17⟩, ⟨-64699489503769945, 23⟩, ⟨-54497417489576274, 24⟩),
  (⟨24619265203190367, 10⟩, ⟨31779310100481561, 17⟩, ⟨-41292690090225416, 23⟩, ⟨-34781495006750854, 24⟩),
  (⟨24518597570304503, 10⟩, ⟨41121367444886070, 17⟩, ⟨-12535491779348282, 24⟩, ⟨-10558845737051580, 25⟩),
  (⟨24546284422017448, 10⟩, ⟨81926900063636054, 17⟩, ⟨-12267331824392036, 23⟩, ⟨-10332970306946603, 24⟩),
  (⟨24692917903309395, 10⟩, ⟨59654776599990444, 17⟩, ⟨-70588400471871940, 23⟩, ⟨-59457741628901974, 24⟩),
  (⟨24679350649528080, 10⟩, ⟨48965032908565465, 17⟩, ⟨-65191740067973089, 23⟩, ⟨-54912048033226778, 24⟩),
  (⟨24713431541044796, 10⟩, ⟨60472582216855586, 18⟩, ⟨-78745356076647966, 23⟩, ⟨-66328476134643566, 24⟩),
  (⟨24731457846725192, 10⟩, ⟨37884301002032661, 18⟩, ⟨-85915043357295029, 23⟩, ⟨-72367618699753923, 24⟩),
  (⟨24616183977247714, 10⟩, ⟨10543634670212143, 17⟩, ⟨-40066319630686976, 23⟩, ⟨-33748503503371905, 24⟩),
  (⟨24589070614215895, 10⟩, ⟨71813694747157852, 17⟩, ⟨-29284696142378103, 23⟩, ⟨-24666969151797868, 24⟩),
  (⟨24755766715187416, 10⟩, ⟨85222841593564902, 17⟩, ⟨-95586883985135321, 23⟩, ⟨-80514365152171378, 24⟩),
  (⟨24579316437352896, 10⟩, ⟨19110673794616651, 17⟩, ⟨-25402976711894879, 23⟩, ⟨-21397334630676675, 24⟩),
  (⟨24686377966559799, 10⟩, ⟨44616594784527108, 17⟩, ⟨-67986609968193818, 23⟩, ⟨-57266211766968524, 24⟩),
  (⟨24830690695268987, 10⟩, ⟨94501104314423490, 17⟩, ⟨-12538749317263665, 22⟩, ⟨-10561589613473547, 23⟩),
  (⟨24742634209092865, 10⟩, ⟨26252917706618883, 17⟩, ⟨-90361219694384977, 23⟩, ⟨-76112704324587909, 24⟩),
  (⟨24837723392292326, 10⟩, ⟨28152922602476782, 17⟩, ⟨-12818203693318201, 22⟩, ⟨-10796978515579888, 23⟩),
  (⟨24549947493307819, 10⟩, ⟨65732319735647615, 17⟩, ⟨-13723636518801289, 23⟩, ⟨-11559639103438828, 24⟩),
  (⟨24693859294794970, 10⟩, ⟨99836724916737263, 17⟩, ⟨-70964427419313128, 23⟩, ⟨-59774475156464646, 24⟩),
  (⟨24627263781791544, 10⟩, ⟨44878553571030577, 17⟩, ⟨-44474563223602477, 23⟩, ⟨-37461637769521990, 24⟩),
  (⟨24802278102848018, 10⟩, ⟨17980463679663217, 17⟩, ⟨-11408363411479923, 22⟩, ⟨-96094474388704570, 24⟩),
  (⟨24570495048358580, 10⟩, ⟨44100368321890260, 17⟩, ⟨-21895354181057100, 23⟩, ⟨-18442807926910768, 24⟩),
  (⟨24583153964848449, 10⟩, ⟨99887167896134066, 17⟩, ⟨-26932526486656628, 23⟩, ⟨-22685698932862109, 24⟩)]

/-- Entries 400 to 499. -/
def Pr_4 : List (Dec × Dec × Dec × Dec) := [
  (⟨24856273132866072, 10⟩, ⟨67952591936872331, 17⟩, ⟨-13556158787620035, 22⟩, ⟨-11418569924896701, 23⟩),
  (⟨24822173718992043, 10⟩, ⟨59780932375786100, 17⟩, ⟨-12199857276144023, 22⟩, ⟨-10276135412977644, 23⟩),
  (⟨24752851050185259, 10⟩, ⟨76592175207658830, 17⟩, ⟨-94426865032966744, 23⟩, ⟨-79537262587421336, 24⟩),
  (⟨24735838097418072, 10⟩, ⟨57893877501195523, 17⟩, ⟨-87659394871638422, 23⟩, ⟨-73836913951615328, 24⟩),
  (⟨24527331899533244, 10⟩, ⟨65100720584205085, 17⟩, ⟨-47284922784865657, 24⟩, ⟨-39828848693142302, 25⟩),
  (⟨24775666966021354, 10⟩, ⟨57177837641038121, 18⟩, ⟨-10349884122969940, 22⟩, ⟨-87178733610465963, 24⟩),
  (⟨24532614205878796, 10⟩, ⟨44774189925275110, 17⟩, ⟨-68286666678415224, 24⟩, ⟨-57518954345509758, 25⟩),
  (⟨24775266587034855, 10⟩, ⟨19985764613445900, 17⟩, ⟨-10334016211238826, 22⟩, ⟨-87045075645475704, 24⟩),
  (⟨24610533863579007, 10⟩, ⟨44982028711153177, 17⟩, ⟨-37820414957692330, 23⟩, ⟨-31856741983385762, 24⟩),
  (⟨24811119791399548, 10⟩, ⟨18539398418672159, 17⟩, ⟨-11760034675547971, 22⟩, ⟨-99056657837754295, 24⟩),
  (⟨24821349230537978, 10⟩, ⟨51188176060132307, 17⟩, ⟨-12167029921632302, 22⟩, ⟨-10248484405873496, 23⟩),
  (⟨24667088829650120, 10⟩, ⟨52329611520378783, 17⟩, ⟨-60314861528318043, 23⟩, ⟨-50804175036701060, 24⟩),
  (⟨24727135820653131, 10⟩, ⟨45351358183293544, 17⟩, ⟨-84197655196173869, 23⟩, ⟨-70921035112679057, 24⟩),
  (⟨24832942742643137, 10⟩, ⟨82401052982019962, 17⟩, ⟨-12628274051629996, 22⟩, ⟨-10636997732792960, 23⟩),
  (⟨24607008003292726, 10⟩, ⟨34442410103694998, 17⟩, ⟨-36417621199494241, 23⟩, ⟨-30675146306532107, 24⟩),
  (⟨24673825395980789, 10⟩, ⟨95360443102877901, 17⟩, ⟨-62995972798185002, 23⟩, ⟨-53062518051933571, 24⟩),
  (⟨24854648346972885, 10⟩, ⟨56981719956059762, 17⟩, ⟨-13491490969352365, 22⟩, ⟨-11364099184597151, 23⟩),
  (⟨24765872755644973, 10⟩, ⟨89627062305734984, 17⟩, ⟨-99606632495539949, 23⟩, ⟨-83900263780658365, 24⟩),
  (⟨24687151444879603, 10⟩, ⟨82843818113097423, 17⟩, ⟨-68295773438988181, 23⟩, ⟨-57526625115970681, 24⟩),
  (⟨24554209668526030, 10⟩, ⟨13103897052609270, 17⟩, ⟨-15416779501598897, 23⟩, ⟨-12985800588031240, 24⟩),
  (⟨24675477074143440, 10⟩, ⟨94653920312410489, 18⟩, ⟨-63649494361455844, 23⟩, ⟨-53612989744139671, 24⟩),
  (⟨24541331018194440, 10⟩, ⟨18847219620111744, 17⟩, ⟨-10294657624383874, 23⟩, ⟨-86713551957099595, 25⟩),
  (⟨24529515710268547, 10⟩, ⟨35432610253014374, 17⟩, ⟨-55959004515608800, 24⟩, ⟨-47135166827097148, 25⟩),
  (⟨24850165736713153, 10⟩, ⟨24524235602845668, 17⟩, ⟨-13313070674281457, 22⟩, ⟨-11213812909022657, 23⟩),
  (⟨24830690011836463, 10⟩, ⟨16985711496158229, 17⟩, ⟨-12538413824961685, 22⟩, ⟨-10561307022927845, 23⟩),
  (⟨24546144964885726, 10⟩, ⟨95251616644341253, 17⟩, ⟨-12212394165759409, 23⟩, ⟨-10286695436134406, 24⟩),
  (⟨24582952457379997, 10⟩, ⟨34130687279297289, 17⟩, ⟨-26849763573669648, 23⟩, ⟨-22615986404118868, 24⟩),
  (⟨24799156495731277, 10⟩, ⟨71050373021814350, 17⟩, ⟨-11284415788782367, 22⟩, ⟨-95050443687257427, 24⟩),
  (⟨24587375518924519, 10⟩, ⟨30075940005700463, 19⟩, ⟨-28607645123776196, 23⟩, ⟨-24096678222062774, 24⟩),
  (⟨24699792610954205, 10⟩, ⟨82401452070296277, 17⟩, ⟨-73323649242974656, 23⟩, ⟨-61761685529540464, 24⟩),
  (⟨24844884974432853, 10⟩, ⟨54804207415192430, 18⟩, ⟨-13102958057460661, 22⟩, ⟨-11036831682639981, 23⟩),
  (⟨24601411559618874, 10⟩, ⟨49535968037652867, 17⟩, ⟨-34192293792388435, 23⟩, ⟨-28800717347568293, 24⟩),
  (⟨24717241188893956, 10⟩, ⟨51776722444819812, 17⟩, ⟨-80262423050207758, 23⟩, ⟨-67606325973210196, 24⟩),
  (⟨24739451854380667, 10⟩, ⟨55668227579704921, 17⟩, ⟨-89096640900702935, 23⟩, ⟨-75047529328674853, 24⟩),
  (⟨24821795571410162, 10⟩, ⟨33144058247229236, 17⟩, ⟨-12184710900756578, 22⟩, ⟨-10263377378110996, 23⟩),
  (⟨24588105931261056, 10⟩, ⟨87853687393285085, 17⟩, ⟨-28901641423017405, 23⟩, ⟨-24344316019254440, 24⟩),
  (⟨24516611069647940, 10⟩, ⟨71839554286901519, 17⟩, ⟨-46466081891884129, 25⟩, ⟨-39139125878563497, 26⟩),
  (⟨24856059488485456, 10⟩, ⟨93839374771850925, 17⟩, ⟨-13547764264786932, 22⟩, ⟨-11411499083705060, 23⟩),
  (⟨24759007000656668, 10⟩, ⟨80749268189697876, 17⟩, ⟨-96875496171654047, 23⟩, ⟨-81599783860255234, 24⟩),
  (⟨24833646044945098, 10⟩, ⟨20712691463973876, 17⟩, ⟨-12656001816062665, 22⟩, ⟨-10660353273399687, 23⟩),
  (⟨24800450578083391, 10⟩, ⟨22928664130637588, 17⟩, ⟨-11335695180216572, 22⟩, ⟨-95482378224150239, 24⟩),
  (⟨24791549329977348, 10⟩, ⟨75117208744925923, 17⟩, ⟨-10981864793967624, 22⟩, ⟨-92502008142747477, 24⟩),
  (⟨24526269579325831, 10⟩, ⟨84617589929756287, 17⟩, ⟨-43067416383338529, 24⟩, ⟨-36276375421840959, 25⟩),
  (⟨24864197605544738, 10⟩, ⟨37719487627315984, 17⟩, ⟨-13871226264395232, 22⟩, ⟨-11683956312809464, 23⟩),
  (⟨24692826510861898, 10⟩, ⟨15467959009734011, 17⟩, ⟨-70550292583607645, 23⟩, ⟨-59425642743542697, 24⟩),
  (⟨24569338157308497, 10⟩, ⟨81618283972970629, 17⟩, ⟨-21436704936881670, 23⟩, ⟨-18056480313929360, 24⟩),
  (⟨24597705717841205, 10⟩, ⟨76726930766250223, 17⟩, ⟨-32719414947646929, 23⟩, ⟨-27560087878478504, 24⟩),
  (⟨24549724110744419, 10⟩, ⟨23774507022665181, 17⟩, ⟨-13633119579929208, 23⟩, ⟨-11483395234353851, 24⟩),
  (⟨24539114824564420, 10⟩, ⟨51905681903317380, 17⟩, ⟨-94145043367523610, 24⟩, ⟨-79299879679502602, 25⟩),
  (⟨24712449499417786, 10⟩, ⟨52802993956218791, 17⟩, ⟨-78356618811499421, 23⟩, ⟨-66001036502661281, 24⟩),
  (⟨24706112346726665, 10⟩, ⟨16481797030609313, 17⟩, ⟨-75834637065168817, 23⟩, ⟨-63876730836804968, 24⟩),
  (⟨24621955792719740, 10⟩, ⟨20887714383543399, 17⟩, ⟨-42362411117159370, 23⟩, ⟨-35682538181114710, 24⟩),
  (⟨24679707264209022, 10⟩, ⟨92696715526755513, 19⟩, ⟨-65331669213936301, 23⟩, ⟨-55029912596687875, 24⟩),
  (⟨24831592985248985, 10⟩, ⟨50808656424920162, 18⟩, ⟨-12574281310632082, 22⟩, ⟨-10591518781256590, 23⟩),
  (⟨24832659035382760, 10⟩, ⟨75697138109588624, 17⟩, ⟨-12616963223893896, 22⟩, ⟨-10627470441217484, 23⟩),
  (⟨24729419249366480, 10⟩, ⟨22030541821764527, 17⟩, ⟨-85104937849416554, 23⟩, ⟨-71685253840122589, 24⟩),
  (⟨24777333527537612, 10⟩, ⟨51944667756359109, 17⟩, ⟨-10416353750699840, 22⟩, ⟨-87738617943488708, 24⟩),
  (⟨24860725840465482, 10⟩, ⟨89356429148793726, 17⟩, ⟨-13733345770483379, 22⟩, ⟨-11567817361822140, 23⟩),
  (⟨24579572688528695, 10⟩, ⟨86531974786041599, 17⟩, ⟨-25507579586250784, 23⟩, ⟨-21485443309092929, 24⟩),
  (⟨24664759330361593, 10⟩, ⟨95637905265928580, 17⟩, ⟨-59390049760360409, 23⟩, ⟨-50025191254847204, 24⟩),
  (⟨24822900711697969, 10⟩, ⟨62691706209742970, 17⟩, ⟨-12228784238351907, 22⟩, ⟨-10300501057100019, 23⟩),
  (⟨24729911629068805, 10⟩, ⟨60559232655044726, 17⟩, ⟨-85302309235509383, 23⟩, ⟨-71851502923552693, 24⟩),
  (⟨24672590815343787, 10⟩, ⟨80773382986896047, 17⟩, ⟨-62504350900606678, 23⟩, ⟨-52648417044262051, 24⟩),
  (⟨24755922009379049, 10⟩, ⟨81493083188229454, 17⟩, ⟨-95648502300533785, 23⟩, ⟨-80566267247304276, 24⟩),
  (⟨24714058837615894, 10⟩, ⟨62970334280181295, 17⟩, ⟨-78997120873175961, 23⟩, ⟨-66540541659901918, 24⟩),
  (⟨24590052503596116, 10⟩, ⟨99744137188137894, 17⟩, ⟨-29676343418626824, 23⟩, ⟨-24996859932792955, 24⟩),
  (⟨24603992054954078, 10⟩, ⟨27767273587755803, 17⟩, ⟨-35217793363952776, 23⟩, ⟨-29664512080966726, 24⟩),
  (⟨24673838168298001, 10⟩, ⟨44928995198475186, 17⟩, ⟨-62999046996780804, 23⟩, ⟨-53065107498706731, 24⟩),
  (⟨24708312392599192, 10⟩, ⟨12295303224100640, 17⟩, ⟨-76709516101600580, 23⟩, ⟨-64613655478204512, 24⟩),
  (⟨24804600984886969, 10⟩, ⟨42243237118187449, 18⟩, ⟨-11500698934643231, 22⟩, ⟨-96872231306656142, 24⟩),
  (⟨24563641210467215, 10⟩, ⟨47184765651864624, 17⟩, ⟨-19169433543365535, 23⟩, ⟨-16146721262624596, 24⟩),
  (⟨24809606296012374, 10⟩, ⟨39369866760087935, 17⟩, ⟨-11699919808899031, 22⟩, ⟨-98550300676326224, 24⟩),
  (⟨24815681227881028, 10⟩, ⟨51135391909138184, 18⟩, ⟨-11941407706005313, 22⟩, ⟨-10058439195714135, 23⟩),
  (⟨24777398406848204, 10⟩, ⟨61477766196509009, 17⟩, ⟨-10418972175264097, 22⟩, ⟨-87760673353467636, 24⟩),
  (⟨24562625337855588, 10⟩, ⟨36449359275647086, 17⟩, ⟨-18764953702220503, 23⟩, ⟨-15806021406442363, 24⟩),
  (⟨24688820736900498, 10⟩, ⟨60409118628783121, 17⟩, ⟨-68958824802687812, 23⟩, ⟨-58085123911891878, 24⟩),
  (⟨24753438000475038, 10⟩, ⟨48797861177075663, 17⟩, ⟨-94659212965520910, 23⟩, ⟨-79732972976797847, 24⟩),
  (⟨24554027058282592, 10⟩, ⟨10215903289111727, 17⟩, ⟨-15344033294124381, 23⟩, ⟨-12924525290962766, 24⟩),
  (⟨24854345703105270, 10⟩, ⟨67140371502440321, 17⟩, ⟨-13479494026716979, 22⟩, ⟨-11353993967439896, 23⟩),
  (⟨24691591852079625, 10⟩, ⟨65220542837306827, 18⟩, ⟨-70058863975690397, 23⟩, ⟨-59011704546852178, 24⟩),
  (⟨24579347777640200, 10⟩, ⟨49983822478281903, 17⟩, ⟨-25416669935500548, 23⟩, ⟨-21408868652495702, 24⟩),
  (⟨24813903626933261, 10⟩, ⟨15126066792870452, 17⟩, ⟨-11870745285894409, 22⟩, ⟨-99989191061563441, 24⟩),
  (⟨24539432435807018, 10⟩, ⟨93213034922727034, 18⟩, ⟨-95391371822655147, 24⟩, ⟨-80349682122603555, 25⟩),
  (⟨24786879705802766, 10⟩, ⟨31547770886748916, 17⟩, ⟨-10795962016710215, 22⟩, ⟨-90936119239701585, 24⟩),
  (⟨24672422298716479, 10⟩, ⟨11986423541366620, 17⟩, ⟨-62434589220178689, 23⟩, ⟨-52589655662182872, 24⟩),
  (⟨24716979364555315, 10⟩, ⟨97315383696422975, 17⟩, ⟨-80160096373792502, 23⟩, ⟨-67520134572819035, 24⟩),
  (⟨24575717126482516, 10⟩, ⟨54721619066619331, 17⟩, ⟨-23972804332663659, 23⟩, ⟨-20192677502300372, 24⟩),
  (⟨24534919960929533, 10⟩, ⟨51509900328203284, 17⟩, ⟨-77460248588049123, 24⟩, ⟨-65246009489816769, 25⟩),
  (⟨24820619429541836, 10⟩, ⟨45942313393271295, 17⟩, ⟨-12137981975003155, 22⟩, ⟨-10224016854633058, 23⟩),
  (⟨24624012339796089, 10⟩, ⟨53613052517280813, 17⟩, ⟨-43181683117796046, 23⟩, ⟨-36372624124584415, 24⟩),
  (⟨24516720702940272, 10⟩, ⟨91951920977373480, 18⟩, ⟨-50577471507447903, 25⟩, ⟨-42602215279425489, 26⟩),
  (⟨24696969536611843, 10⟩, ⟨97803474435745663, 17⟩, ⟨-72201413145968260, 23⟩, ⟨-60816408069555769, 24⟩),
  (⟨24865120608299021, 10⟩, ⟨33930092877201612, 17⟩, ⟨-13907922674841235, 22⟩, ⟨-11714866287768821, 23⟩),
  (⟨24799629048549016, 10⟩, ⟨33636899234250939, 17⟩, ⟨-11303062281385330, 22⟩, ⟨-95207506084487125, 24⟩),
  (⟨24560441745756459, 10⟩, ⟨97077496941117591, 17⟩, ⟨-17898863892577739, 23⟩, ⟨-15076500071705726, 24⟩),
  (⟨24731857131365282, 10⟩, ⟨30716526064950678, 17⟩, ⟨-86074925741068099, 23⟩, ⟨-72502290195379891, 24⟩),
  (⟨24733491669936385, 10⟩, ⟨37559639901499953, 17⟩, ⟨-86725318773454576, 23⟩, ⟨-73050126675854937, 24⟩),
  (⟨24567487961354563, 10⟩, ⟨44593918232567376, 17⟩, ⟨-20699335977058117, 23⟩, ⟨-17435382615082490, 24⟩),
  (⟨24872381441311692, 10⟩, ⟨83104909059898424, 18⟩, ⟨-14196612918248386, 22⟩, ⟨-11958034709046863, 23⟩),
  (⟨24735551362701380, 10⟩, ⟨43268021944410928, 17⟩, ⟨-87544767367741603, 23⟩, ⟨-73740361366988072, 24⟩)]

/-- Entries 500 to 599. -/
def Pr_5 : List (Dec × Dec × Dec × Dec) := [
  (⟨24852891385083143, 10⟩, ⟨33981316723329491, 17⟩, ⟨-13421518140956221, 22⟩, ⟨-11305159949198564, 23⟩),
  (⟨24847814736555177, 10⟩, ⟨40278073705393524, 17⟩, ⟨-13219624727579086, 22⟩, ⟨-11135101889674489, 23⟩),
  (⟨24837379874330861, 10⟩, ⟨67077433981599377, 21⟩, ⟨-12804428672111492, 22⟩, ⟨-10785375594329853, 23⟩),
  (⟨24594989489016491, 10⟩, ⟨76491250347033346, 17⟩, ⟨-31639053579559510, 23⟩, ⟨-26650082174139227, 24⟩),
  (⟨24829768599487287, 10⟩, ⟨89950660670506333, 17⟩, ⟨-12502055809869622, 22⟩, ⟨-10530682083801408, 23⟩),
  (⟨24850901785631962, 10⟩, ⟨73012762360105454, 17⟩, ⟨-13342539118824703, 22⟩, ⟨-11238634652398981, 23⟩),
  (⟨24556048596807178, 10⟩, ⟨73975255054913636, 17⟩, ⟨-16150615350326485, 23⟩, ⟨-13603922290747220, 24⟩),
  (⟨24712392227395466, 10⟩, ⟨16472551945725677, 17⟩, ⟨-78332394449593442, 23⟩, ⟨-65980631934181148, 24⟩),
  (⟨24733085049956855, 10⟩, ⟨83574475795268188, 17⟩, ⟨-86565420063957342, 23⟩, ⟨-72915441428809715, 24⟩),
  (⟨24620977383791110, 10⟩, ⟨71580774426901472, 18⟩, ⟨-41972712977015473, 23⟩, ⟨-35354289188715847, 24⟩),
  (⟨24815296937116943, 10⟩, ⟨87071081560103225, 17⟩, ⟨-11926448914971979, 22⟩, ⟨-10045839166156939, 23⟩),
  (⟨24807129267882961, 10⟩, ⟨95262962813140928, 17⟩, ⟨-11601620879402192, 22⟩, ⟨-97722313030572758, 24⟩),
  (⟨24723894583615838, 10⟩, ⟨48486367918977868, 18⟩, ⟨-82906875647555435, 23⟩, ⟨-69833790800744166, 24⟩),
  (⟨24523773110416522, 10⟩, ⟨50822056605554089, 17⟩, ⟨-33124527010052433, 24⟩, ⟨-27901320264766340, 25⟩),
  (⟨24687980929944688, 10⟩, ⟨60046637321786567, 17⟩, ⟨-68624785832226624, 23⟩, ⟨-57803757530632390, 24⟩),
  (⟨24553524890299379, 10⟩, ⟨88392165697036174, 17⟩, ⟨-15147410539406231, 23⟩, ⟨-12758906791744142, 24⟩),
  (⟨24591802879221370, 10⟩, ⟨90479822492730710, 17⟩, ⟨-30372168787961619, 23⟩, ⟨-25582964799204110, 24⟩),
  (⟨24624376123489696, 10⟩, ⟨84661572671536445, 17⟩, ⟨-43327609251958423, 23⟩, ⟨-36495540047369613, 24⟩),
  (⟨24704400197680779, 10⟩, ⟨20040213434647736, 17⟩, ⟨-75153788977209841, 23⟩, ⟨-63303241574662973, 24⟩),
  (⟨24696333126572785, 10⟩, ⟨22153557374919486, 17⟩, ⟨-71945278720792689, 23⟩, ⟨-60600661936018935, 24⟩),
  (⟨24656979631101377, 10⟩, ⟨53296723799503787, 17⟩, ⟨-56294070558952127, 23⟩, ⟨-47417398328314756, 24⟩),
  (⟨24544887040790846, 10⟩, ⟨24527368310230568, 17⟩, ⟨-11709254849874008, 23⟩, ⟨-98628931223367231, 25⟩),
  (⟨24695445543228327, 10⟩, ⟨25098324921026904, 17⟩, ⟨-71592368727024496, 23⟩, ⟨-60303400189224026, 24⟩),
  (⟨24831267971902345, 10⟩, ⟨28224760454015196, 17⟩, ⟨-12561446292510584, 22⟩, ⟨-10580707639678528, 23⟩),
  (⟨24559377570675178, 10⟩, ⟨73269000953348484, 17⟩, ⟨-17474652273767957, 23⟩, ⟨-14719179822790029, 24⟩),
  (⟨24808965494674910, 10⟩, ⟨99718599145725562, 18⟩, ⟨-11674315669218977, 22⟩, ⟨-98334632902081409, 24⟩),
  (⟨24813870437561083, 10⟩, ⟨42316018648086140, 17⟩, ⟨-11869533358083073, 22⟩, ⟨-99978982799271392, 24⟩),
  (⟨24772865393927335, 10⟩, ⟨24631023911697048, 17⟩, ⟨-10238529708521682, 22⟩, ⟨-86240777521470788, 24⟩),
  (⟨24781591134279184, 10⟩, ⟨12188248033477733, 18⟩, ⟨-10585493909848748, 22⟩, ⟨-89163312626258080, 24⟩),
  (⟨24729612943374664, 10⟩, ⟨74972570526124616, 17⟩, ⟨-85184083357581039, 23⟩, ⟨-71751919370777413, 24⟩),
  (⟨24741251709101819, 10⟩, ⟨94087033586332325, 17⟩, ⟨-89814042616935622, 23⟩, ⟨-75651808298062900, 24⟩),
  (⟨24580008945490238, 10⟩, ⟨63083575001434111, 17⟩, ⟨-25680163656322283, 23⟩, ⟨-21630813638764371, 24⟩),
  (⟨24879823126948480, 10⟩, ⟨17038417326144328, 17⟩, ⟨-14492633001961280, 22⟩, ⟨-12207377172351167, 23⟩),
  (⟨24654910668181870, 10⟩, ⟨80922242558720170, 17⟩, ⟨-55472260677856421, 23⟩, ⟨-46725174687438545, 24⟩),
  (⟨24548530311056687, 10⟩, ⟨16214261954472986, 17⟩, ⟨-13157997368542774, 23⟩, ⟨-11083192176940417, 24⟩),
  (⟨24653625190172647, 10⟩, ⟨94829458186512861, 17⟩, ⟨-54961528205962451, 23⟩, ⟨-46294976536575742, 24⟩),
  (⟨24546989263795917, 10⟩, ⟨54097741743721539, 17⟩, ⟨-12546568494496577, 23⟩, ⟨-10568175831840267, 24⟩),
  (⟨24778433281811257, 10⟩, ⟨62337456696717408, 17⟩, ⟨-10460136678662427, 22⟩, ⟨-88107408566474096, 24⟩),
  (⟨24794429323550193, 10⟩, ⟨47851757643383397, 17⟩, ⟨-11096305121778342, 22⟩, ⟨-93465957374832409, 24⟩),
  (⟨24782010158008407, 10⟩, ⟨28234339553690802, 17⟩, ⟨-10602267597832488, 22⟩, ⟨-89304600089868829, 24⟩),
  (⟨24778608948209016, 10⟩, ⟨21426924399254976, 18⟩, ⟨-10466884209948991, 22⟩, ⟨-88164244104492730, 24⟩),
  (⟨24691778061843351, 10⟩, ⟨44345861499825989, 17⟩, ⟨-70134431391166567, 23⟩, ⟨-59075356192659562, 24⟩),
  (⟨24541931380019756, 10⟩, ⟨42722348126867005, 17⟩, ⟨-10534394955617301, 23⟩, ⟨-88732897940857885, 25⟩),
  (⟨24675913603162076, 10⟩, ⟨47866426400761108, 19⟩, ⟨-63822761837515471, 23⟩, ⟨-53758935717633578, 24⟩),
  (⟨24788401928234296, 10⟩, ⟨64191306739350029, 18⟩, ⟨-10856406897010298, 22⟩, ⟨-91445256159032155, 24⟩),
  (⟨24775696150976797, 10⟩, ⟨43283433682651173, 17⟩, ⟨-10351194337962408, 22⟩, ⟨-87189769761445388, 24⟩),
  (⟨24637207092212019, 10⟩, ⟨33576862197425883, 17⟩, ⟨-48428962854046613, 23⟩, ⟨-40792491988524494, 24⟩),
  (⟨24634815834930311, 10⟩, ⟨53748154651497315, 17⟩, ⟨-47478667231044761, 23⟩, ⟨-39992042746923730, 24⟩),
  (⟨24643378962013312, 10⟩, ⟨60847671887653310, 17⟩, ⟨-50884845066207070, 23⟩, ⟨-42861120956818503, 24⟩),
  (⟨24539081301862192, 10⟩, ⟨55983611516434406, 17⟩, ⟨-94013332232085118, 24⟩, ⟨-79188937278085355, 25⟩),
  (⟨24773594415566758, 10⟩, ⟨88722574483880179, 17⟩, ⟨-10267780709694387, 22⟩, ⟨-86487163394856103, 24⟩),
  (⟨24728491339791631, 10⟩, ⟨69776648881477166, 18⟩, ⟨-84735272675777163, 23⟩, ⟨-71373878936646593, 24⟩),
  (⟨24628326450778265, 10⟩, ⟨78991048745330950, 17⟩, ⟨-44898585639775963, 23⟩, ⟨-37818798650023200, 24⟩),
  (⟨24775837732222532, 10⟩, ⟨76207808144753231, 17⟩, ⟨-10356956539257811, 22⟩, ⟨-87238305706947142, 24⟩),
  (⟨24757981671789158, 10⟩, ⟨25529263920796685, 18⟩, ⟨-96464572013170228, 23⟩, ⟨-81253655852241499, 24⟩),
  (⟨24677115610060096, 10⟩, ⟨42078866576179308, 17⟩, ⟨-64302502286311128, 23⟩, ⟨-54163028790471967, 24⟩),
  (⟨24636293097535162, 10⟩, ⟨97091735861218420, 17⟩, ⟨-48067957138764528, 23⟩, ⟨-40488411085680513, 24⟩),
  (⟨24810886705300515, 10⟩, ⟨59047708870267301, 17⟩, ⟨-11750925034038818, 22⟩, ⟨-98979925866557556, 24⟩),
  (⟨24741528296483574, 10⟩, ⟨60059179562088028, 17⟩, ⟨-89922698971934873, 23⟩, ⟨-75743331288224125, 24⟩),
  (⟨24598339246737598, 10⟩, ⟨58575721781000900, 17⟩, ⟨-32970672585027474, 23⟩, ⟨-27771726215454474, 24⟩),
  (⟨24684407188229812, 10⟩, ⟨17007801367329423, 17⟩, ⟨-67201655106911152, 23⟩, ⟨-56605031700264878, 24⟩),
  (⟨24790436456619981, 10⟩, ⟨97226309414746626, 17⟩, ⟨-10937689340896764, 22⟩, ⟨-92129911217832231, 24⟩),
  (⟨24631963077510633, 10⟩, ⟨80594196705904830, 17⟩, ⟨-46345080170326592, 23⟩, ⟨-39037204188187652, 24⟩),
  (⟨24740546959763560, 10⟩, ⟨15755998149535244, 17⟩, ⟨-89530620301780355, 23⟩, ⟨-75413077137224621, 24⟩),
  (⟨24746038141642930, 10⟩, ⟨95527381155703639, 17⟩, ⟨-91717854071184263, 23⟩, ⟨-77255419214306374, 24⟩),
  (⟨24808464496931410, 10⟩, ⟨59360938574818944, 18⟩, ⟨-11654372948962412, 22⟩, ⟨-98166652171470454, 24⟩),
  (⟨24809735361936321, 10⟩, ⟨95353712495409426, 17⟩, ⟨-11705275942849385, 22⟩, ⟨-98595416251466192, 24⟩),
  (⟨24609954016496018, 10⟩, ⟨24862696283285735, 17⟩, ⟨-37588986536501826, 23⟩, ⟨-31661806113175566, 24⟩),
  (⟨24713676762677589, 10⟩, ⟨54335524925801870, 17⟩, ⟨-78844811067354215, 23⟩, ⟨-66412248668113475, 24⟩),
  (⟨24814232337921718, 10⟩, ⟨65896995626206178, 17⟩, ⟨-11884021362490610, 22⟩, ⟨-10010101758360186, 23⟩),
  (⟨24704734637679309, 10⟩, ⟨90499277044092297, 17⟩, ⟨-75289611473077398, 23⟩, ⟨-63417647040896824, 24⟩),
  (⟨24708937278643968, 10⟩, ⟨78638307319866774, 17⟩, ⟨-76960696804071135, 23⟩, ⟨-64825229011672124, 24⟩),
  (⟨24845521709985640, 10⟩, ⟨80740824557705881, 17⟩, ⟨-13128582897702235, 22⟩, ⟨-11058415896479371, 23⟩),
  (⟨24748246867656223, 10⟩, ⟨71427873828767230, 17⟩, ⟨-92595393524490685, 23⟩, ⟨-77994584767500237, 24⟩),
  (⟨24720763994083395, 10⟩, ⟨23483225710125843, 18⟩, ⟨-81661616509082366, 23⟩, ⟨-68784889060211533, 24⟩),
  (⟨24777240565798902, 10⟩, ⟨51284096152796455, 17⟩, ⟨-10412653666087488, 22⟩, ⟨-87707451537476459, 24⟩),
  (⟨24721542281350945, 10⟩, ⟨29461563793259027, 17⟩, ⟨-81972250642060381, 23⟩, ⟨-69046541171553605, 24⟩),
  (⟨24673343760777521, 10⟩, ⟨71597391293119517, 17⟩, ⟨-62803462213810404, 23⟩, ⟨-52900363299735503, 24⟩),
  (⟨24599898952944754, 10⟩, ⟨90753833826924257, 17⟩, ⟨-33592309490049630, 23⟩, ⟨-28295340948735272, 24⟩),
  (⟨24817963937222008, 10⟩, ⟨22726192624246055, 17⟩, ⟨-12032270167689074, 22⟩, ⟨-10134974104203977, 23⟩),
  (⟨24575451271441109, 10⟩, ⟨60490549174952235, 17⟩, ⟨-23867292685774975, 23⟩, ⟨-20103803350207250, 24⟩),
  (⟨24779541664654650, 10⟩, ⟨83624002264538200, 17⟩, ⟨-10504306127878611, 22⟩, ⟨-88479454919958659, 24⟩),
  (⟨24777980116822086, 10⟩, ⟨88102227204863603, 18⟩, ⟨-10441899609656484, 22⟩, ⟨-87953794809854714, 24⟩),
  (⟨24718619582557189, 10⟩, ⟨98230213029385238, 17⟩, ⟨-80812512549777990, 23⟩, ⟨-68069675179589394, 24⟩),
  (⟨24542547661670926, 10⟩, ⟨69281109652090633, 17⟩, ⟨-10780570972088404, 23⟩, ⟨-90806478002840395, 25⟩),
  (⟨24715398361199866, 10⟩, ⟨20178232718648714, 17⟩, ⟨-79528200548346680, 23⟩, ⟨-66987878586359747, 24⟩),
  (⟨24599118259978034, 10⟩, ⟨14358015069650565, 17⟩, ⟨-33278758351363048, 23⟩, ⟨-28031231796709600, 24⟩),
  (⟨24864272340824297, 10⟩, ⟨69096423741736834, 17⟩, ⟨-13874323581568518, 22⟩, ⟨-11686565232731165, 23⟩),
  (⟨24760543828612887, 10⟩, ⟨23184316472241451, 17⟩, ⟨-97484464050599388, 23⟩, ⟨-82112727269718932, 24⟩),
  (⟨24593017577326563, 10⟩, ⟨72746563908581252, 18⟩, ⟨-30851993028708845, 23⟩, ⟨-25987128451346943, 24⟩),
  (⟨24879120517512853, 10⟩, ⟨98516337726637804, 17⟩, ⟨-14465011506501179, 22⟩, ⟨-12184111143804094, 23⟩),
  (⟨24808207903041625, 10⟩, ⟨21649906341429881, 17⟩, ⟨-11644229691769139, 22⟩, ⟨-98081213889622235, 24⟩),
  (⟨24722798600772223, 10⟩, ⟨37628182860758319, 17⟩, ⟨-82472263550405699, 23⟩, ⟨-69467710062147155, 24⟩),
  (⟨24582283956130296, 10⟩, ⟨67036109173908787, 17⟩, ⟨-26585182877137202, 23⟩, ⟨-22393125840779006, 24⟩),
  (⟨24738943654881646, 10⟩, ⟨40673961262748437, 17⟩, ⟨-88893913411129542, 23⟩, ⟨-74876768713395945, 24⟩),
  (⟨24527027566613969, 10⟩, ⟨28972563339219215, 17⟩, ⟨-46060100391897305, 24⟩, ⟨-38797161151059164, 25⟩),
  (⟨24701943291890323, 10⟩, ⟨56653932588790201, 17⟩, ⟨-74178036317650235, 23⟩, ⟨-62481349462956509, 24⟩),
  (⟨24797588675991436, 10⟩, ⟨74052587342613352, 17⟩, ⟨-11222069317006467, 22⟩, ⟨-94525289357998724, 24⟩),
  (⟨24681409268508651, 10⟩, ⟨25762687376016391, 19⟩, ⟨-66008597243748169, 23⟩, ⟨-55600099930992941, 24⟩),
  (⟨24739266416515405, 10⟩, ⟨90981998566912736, 17⟩, ⟨-89024289471601550, 23⟩, ⟨-74986586559760481, 24⟩)]

/-- Entries 600 to 699. -/
def Pr_6 : List (Dec × Dec × Dec × Dec) := [
  (⟨24709639527881905, 10⟩, ⟨45138650496104871, 17⟩, ⟨-77238676779695580, 23⟩, ⟨-65059376002653636, 24⟩),
  (⟨24782164771006163, 10⟩, ⟨50413988715277058, 17⟩, ⟨-10608505387584397, 22⟩, ⟨-89357141993202120, 24⟩),
  (⟨24642312776198625, 10⟩, ⟨63521113258477735, 17⟩, ⟨-50460886990667369, 23⟩, ⟨-42504014271464854, 24⟩),
  (⟨24516929165955442, 10⟩, ⟨83953132698528854, 17⟩, ⟨-59166214879932652, 25⟩, ⟨-49836651545786752, 26⟩),
  (⟨24642773262044615, 10⟩, ⟨72788024103602611, 17⟩, ⟨-50644409067311071, 23⟩, ⟨-42658597859467085, 24⟩),
  (⟨24743594482013881, 10⟩, ⟨38736574735507401, 18⟩, ⟨-90742268230458669, 23⟩, ⟨-76433667616778798, 24⟩),
  (⟨24529660887323874, 10⟩, ⟨43726767093363439, 17⟩, ⟨-56539730191882505, 24⟩, ⟨-47624321376376248, 25⟩),
  (⟨24524936331108920, 10⟩, ⟨49658306999628254, 17⟩, ⟨-37750654445655255, 24⟩, ⟨-31797981585460988, 25⟩),
  (⟨24764652019515899, 10⟩, ⟨58754882738760039, 17⟩, ⟨-99119869384342390, 23⟩, ⟨-83490255406667837, 24⟩),
  (⟨24658616489848844, 10⟩, ⟨81624001660586587, 18⟩, ⟨-56943319068596880, 23⟩, ⟨-47964270758931593, 24⟩),
  (⟨24579587785522295, 10⟩, ⟨32812565257166448, 17⟩, ⟨-25511447625616563, 23⟩, ⟨-21488701420676189, 24⟩),
  (⟨24559781571321003, 10⟩, ⟨20934848195678091, 17⟩, ⟨-17633257825996172, 23⟩, ⟨-14852775822731298, 24⟩),
  (⟨24766718535410259, 10⟩, ⟨18454833472895005, 17⟩, ⟨-99940201870053778, 23⟩, ⟨-84181234613721249, 24⟩),
  (⟨24656947792205862, 10⟩, ⟨96044621386358631, 17⟩, ⟨-56283107220241408, 23⟩, ⟨-47408163732317468, 24⟩),
  (⟨24836436373112085, 10⟩, ⟨71582201679797464, 17⟩, ⟨-12767186568603294, 22⟩, ⟨-10754005973353815, 23⟩),
  (⟨24634414924377925, 10⟩, ⟨13545491876504112, 17⟩, ⟨-47317610175228103, 23⟩, ⟨-39856381806199139, 24⟩),
  (⟨24640135806952906, 10⟩, ⟨85431066365456210, 17⟩, ⟨-49595891376797473, 23⟩, ⟨-41775414595373537, 24⟩),
  (⟨24597252751773340, 10⟩, ⟨73999541385749090, 17⟩, ⟨-32539143887897679, 23⟩, ⟨-27408242674137737, 24⟩),
  (⟨24647628550905697, 10⟩, ⟨32899322383187757, 17⟩, ⟨-52573963592199599, 23⟩, ⟨-44283892576910322, 24⟩),
  (⟨24541748951081620, 10⟩, ⟨52262218845260944, 18⟩, ⟨-10460344357688793, 23⟩, ⟨-88109157880215280, 25⟩),
  (⟨24614323664288409, 10⟩, ⟨90884633898405942, 17⟩, ⟨-39329594822661660, 23⟩, ⟨-33127948383913905, 24⟩),
  (⟨24848504061794635, 10⟩, ⟨58132619746056868, 17⟩, ⟨-13247112942478707, 22⟩, ⟨-11158255653868264, 23⟩),
  (⟨24517013917527474, 10⟩, ⟨29021918353129761, 17⟩, ⟨-62318637988617569, 25⟩, ⟨-52491988080517519, 26⟩),
  (⟨24659096962562855, 10⟩, ⟨43463421643211719, 17⟩, ⟨-57135826195702774, 23⟩, ⟨-48126422599016783, 24⟩),
  (⟨24808473672758108, 10⟩, ⟨38859613403386106, 17⟩, ⟨-11654868857906005, 22⟩, ⟨-98170829292023199, 24⟩),
  (⟨24830922386244209, 10⟩, ⟨45971274223721126, 17⟩, ⟨-12547771564395622, 22⟩, ⟨-10569189196907909, 23⟩),
  (⟨24563142776925806, 10⟩, ⟨28473560144447807, 17⟩, ⟨-18970442525264081, 23⟩, ⟨-15979107937182225, 24⟩),
  (⟨24873820583682037, 10⟩, ⟨13570079987237671, 17⟩, ⟨-14253874240868186, 22⟩, ⟨-12006266839296277, 23⟩),
  (⟨24583529617416221, 10⟩, ⟨60299101938025568, 17⟩, ⟨-27080363845734520, 23⟩, ⟨-22810224711040854, 24⟩),
  (⟨24585967990017361, 10⟩, ⟨25263235247353177, 17⟩, ⟨-28048807877888190, 23⟩, ⟨-23625960648686729, 24⟩),
  (⟨24788070407996885, 10⟩, ⟨93080415774053338, 17⟩, ⟨-10843565707888309, 22⟩, ⟨-91337092763924876, 24⟩),
  (⟨24761123024627292, 10⟩, ⟨14645234012972630, 17⟩, ⟨-97714493657088886, 23⟩, ⟨-82306484895875955, 24⟩),
  (⟨24568415578916520, 10⟩, ⟨64900989339267479, 17⟩, ⟨-21069093985735215, 23⟩, ⟨-17746835714999391, 24⟩),
  (⟨24876230903853597, 10⟩, ⟨13381354324863814, 17⟩, ⟨-14349741488544742, 22⟩, ⟨-12087017359281471, 23⟩),
  (⟨24587628875615979, 10⟩, ⟨54192965749902977, 17⟩, ⟨-28710558641062951, 23⟩, ⟨-24183363927930211, 24⟩),
  (⟨24580394695370053, 10⟩, ⟨37881349763540051, 17⟩, ⟨-25832589299074266, 23⟩, ⟨-21759204201856649, 24⟩),
  (⟨24764393302059313, 10⟩, ⟨87972921267400750, 18⟩, ⟨-99014980173310720, 23⟩, ⟨-83401905542278071, 24⟩),
  (⟨24760835165753355, 10⟩, ⟨94681217699948572, 17⟩, ⟨-97603184108246844, 23⟩, ⟨-82212727077995997, 24⟩),
  (⟨24546170848945775, 10⟩, ⟨85531019724592339, 17⟩, ⟨-12222302656906901, 23⟩, ⟨-10295041517114306, 24⟩),
  (⟨24709965253772452, 10⟩, ⟨54138330603918938, 17⟩, ⟨-77368588845431930, 23⟩, ⟨-65168803018812012, 24⟩),
  (⟨24798341284362250, 10⟩, ⟨96972213534498586, 18⟩, ⟨-11251747571727994, 22⟩, ⟨-94775274056537479, 24⟩),
  (⟨24698244667412303, 10⟩, ⟨98541755660506558, 17⟩, ⟨-72708612631848646, 23⟩, ⟨-61243630329646572, 24⟩),
  (⟨24767187070852052, 10⟩, ⟨12337793037237876, 17⟩, ⟨-10012631370959575, 22⟩, ⟨-84337999600540517, 24⟩),
  (⟨24533443061264646, 10⟩, ⟨68952299639434955, 17⟩, ⟨-71592970063798808, 24⟩, ⟨-60303906704831696, 25⟩),
  (⟨24614489083871385, 10⟩, ⟨15870902013541588, 17⟩, ⟨-39392405161504613, 23⟩, ⟨-33180854539508640, 24⟩),
  (⟨24701105892654941, 10⟩, ⟨82688120583529279, 17⟩, ⟨-73846004893441766, 23⟩, ⟨-62201674070097441, 24⟩),
  (⟨24777175433953735, 10⟩, ⟨61302041429129439, 17⟩, ⟨-10410102959480514, 22⟩, ⟨-87685966526710542, 24⟩),
  (⟨24520258423139127, 10⟩, ⟨10418541823862371, 17⟩, ⟨-19129150861669462, 24⟩, ⟨-16112790513884102, 25⟩),
  (⟨24778021413899446, 10⟩, ⟨99727381213079069, 17⟩, ⟨-10443903771924785, 22⟩, ⟨-87970676190015526, 24⟩),
  (⟨24605012453917605, 10⟩, ⟨58245441848887447, 17⟩, ⟨-35624858762858817, 23⟩, ⟨-30007389793911442, 24⟩),
  (⟨24820024399081008, 10⟩, ⟨32275455456826008, 17⟩, ⟨-12114260893745540, 22⟩, ⟨-10204036207513345, 23⟩),
  (⟨24764261444335319, 10⟩, ⟨26042958498296365, 17⟩, ⟨-98963221052438621, 23⟩, ⟨-83358308004790610, 24⟩),
  (⟨24655186648191563, 10⟩, ⟨28757770922588388, 17⟩, ⟨-55579954091628399, 23⟩, ⟨-46815886576762909, 24⟩),
  (⟨24627320702851983, 10⟩, ⟨80275243419654463, 17⟩, ⟨-44498610855011961, 23⟩, ⟨-37481893475070975, 24⟩),
  (⟨24775565112104099, 10⟩, ⟨45184415447867710, 17⟩, ⟨-10345989962940744, 22⟩, ⟨-87145932476096901, 24⟩),
  (⟨24600040745209325, 10⟩, ⟨85000587313067699, 18⟩, ⟨-33645434341489109, 23⟩, ⟨-28340088862979645, 24⟩),
  (⟨24580652902888041, 10⟩, ⟨93491958569247657, 17⟩, ⟨-25937500530256220, 23⟩, ⟨-21847572614172100, 24⟩),
  (⟨24688266057618503, 10⟩, ⟨89471741922295245, 17⟩, ⟨-68739362776261197, 23⟩, ⟨-57900267527876933, 24⟩),
  (⟨24764018033958464, 10⟩, ⟨42160180573208139, 17⟩, ⟨-98867048131971610, 23⟩, ⟨-83277300011712429, 24⟩),
  (⟨24846226594367567, 10⟩, ⟨11394487087794114, 18⟩, ⟨-13156302340566944, 22⟩, ⟨-11081764427695966, 23⟩),
  (⟨24813023861135682, 10⟩, ⟨62937221291909862, 17⟩, ⟨-11835943672805684, 22⟩, ⟨-99696051493948092, 24⟩),
  (⟨24834835864107851, 10⟩, ⟨16611847686727477, 17⟩, ⟨-12703309335148758, 22⟩, ⟨-10700201155319692, 23⟩),
  (⟨24688613123929501, 10⟩, ⟨36615264988088703, 17⟩, ⟨-68875302509247115, 23⟩, ⟨-58014771744815516, 24⟩),
  (⟨24832466512161437, 10⟩, ⟨32411051989664230, 17⟩, ⟨-12609133645432576, 22⟩, ⟨-10620875461729289, 23⟩),
  (⟨24827129070421872, 10⟩, ⟨75031479324366013, 17⟩, ⟨-12397011924752586, 22⟩, ⟨-10442201934949280, 23⟩),
  (⟨24851452151558362, 10⟩, ⟨14859365749802445, 17⟩, ⟨-13364198056648408, 22⟩, ⟨-11256878323037069, 23⟩),
  (⟨24836618446647483, 10⟩, ⟨43203575404634820, 18⟩, ⟨-12774160828598591, 22⟩, ⟨-10759880504382725, 23⟩),
  (⟨24674952563364734, 10⟩, ⟨52448671483306564, 18⟩, ⟨-63440707743108065, 23⟩, ⟨-53437125427533700, 24⟩),
  (⟨24657037360884259, 10⟩, ⟨99334283098799658, 17⟩, ⟨-56318863080975250, 23⟩, ⟨-47438281467172206, 24⟩),
  (⟨24688863380831662, 10⟩, ⟨47714230986660178, 17⟩, ⟨-68975281060329241, 23⟩, ⟨-58098985281585510, 24⟩),
  (⟨24570132833079011, 10⟩, ⟨30353264960955850, 17⟩, ⟨-21750740013403080, 23⟩, ⟨-18320997094553436, 24⟩),
  (⟨24633252953038965, 10⟩, ⟨85909309164145586, 17⟩, ⟨-46858326258350909, 23⟩, ⟨-39469519598223819, 24⟩),
  (⟨24875311329012117, 10⟩, ⟨64507199142574212, 17⟩, ⟨-14313369695641059, 22⟩, ⟨-12056380814883373, 23⟩),
  (⟨24532212785059381, 10⟩, ⟨98732114179464370, 18⟩, ⟨-66676175276006805, 24⟩, ⟨-56162411612428226, 25⟩),
  (⟨24848480880662547, 10⟩, ⟨58247525369886721, 17⟩, ⟨-13246191393889080, 22⟩, ⟨-11157479418713844, 23⟩),
  (⟨24627203808915000, 10⟩, ⟨71431010549850260, 17⟩, ⟨-44451765727228169, 23⟩, ⟨-37442435072759516, 24⟩),
  (⟨24792302960500610, 10⟩, ⟨28901784442731815, 17⟩, ⟨-11011655853495075, 22⟩, ⟨-92752943014255183, 24⟩),
  (⟨24834949941188958, 10⟩, ⟨45300927575881844, 17⟩, ⟨-12707960741222416, 22⟩, ⟨-10704119109242575, 23⟩),
  (⟨24624428416260825, 10⟩, ⟨62139440911463117, 17⟩, ⟨-43347512367661170, 23⟩, ⟨-36512304760879956, 24⟩),
  (⟨24592952377530616, 10⟩, ⟨26118426863702171, 17⟩, ⟨-30826809974009518, 23⟩, ⟨-25965916360553986, 24⟩),
  (⟨24640423173499932, 10⟩, ⟨28747612331734218, 17⟩, ⟨-49707933930465942, 23⟩, ⟨-41869789834972812, 24⟩),
  (⟨24553148643829674, 10⟩, ⟨74334533441939787, 17⟩, ⟨-14997203259656178, 23⟩, ⟨-12632384791380673, 24⟩),
  (⟨24585020150080952, 10⟩, ⟨68265911776128185, 17⟩, ⟨-27673524708289969, 23⟩, ⟨-23309853617127941, 24⟩),
  (⟨24581953588926704, 10⟩, ⟨93701834339618129, 17⟩, ⟨-26454843331719304, 23⟩, ⟨-22283338751630075, 24⟩),
  (⟨24819234915183242, 10⟩, ⟨52906511114676114, 17⟩, ⟨-12082942044046974, 22⟩, ⟨-10177655838202755, 23⟩),
  (⟨24598236182261785, 10⟩, ⟨18987538102814250, 17⟩, ⟨-32928105173829710, 23⟩, ⟨-27735871002418212, 24⟩),
  (⟨24799208288350040, 10⟩, ⟨92464021535698238, 17⟩, ⟨-11286560957341783, 22⟩, ⟨-95068512786019198, 24⟩),
  (⟨24857992464712430, 10⟩, ⟨36075878231569558, 17⟩, ⟨-13624416651788677, 22⟩, ⟨-11476064618426370, 23⟩),
  (⟨24575667378709717, 10⟩, ⟨47013974681524195, 17⟩, ⟨-23952711105631772, 23⟩, ⟨-20175752654968993, 24⟩),
  (⟨24757568275998118, 10⟩, ⟨32467770342306712, 17⟩, ⟨-96301337933974139, 23⟩, ⟨-81116161169815016, 24⟩),
  (⟨24781682160654701, 10⟩, ⟨33478047404650790, 17⟩, ⟨-10589242697761231, 22⟩, ⟨-89194889267977117, 24⟩),
  (⟨24554923540728102, 10⟩, ⟨13230571209082875, 17⟩, ⟨-15700719843929646, 23⟩, ⟨-13224968091466185, 24⟩),
  (⟨24777983434573147, 10⟩, ⟨15296481488046643, 17⟩, ⟨-10442057368207399, 22⟩, ⟨-87955123635426229, 24⟩),
  (⟨24797087752725715, 10⟩, ⟨33331606076362963, 17⟩, ⟨-11201983647367669, 22⟩, ⟨-94356104541818768, 24⟩),
  (⟨24693835663886117, 10⟩, ⟨75974826782062621, 17⟩, ⟨-70954079386713378, 23⟩, ⟨-59765758842671300, 24⟩),
  (⟨24810189501246451, 10⟩, ⟨12896109547990731, 17⟩, ⟨-11723010898805871, 22⟩, ⟨-98744800629354298, 24⟩),
  (⟨24852917427326571, 10⟩, ⟨29703450349782756, 17⟩, ⟨-13422536929550961, 22⟩, ⟨-11306018091168570, 23⟩),
  (⟨24835575623436850, 10⟩, ⟨62173682678496978, 17⟩, ⟨-12732913716815031, 22⟩, ⟨-10725137400714544, 23⟩),
  (⟨24721327030046172, 10⟩, ⟨38156685971300142, 17⟩, ⟨-81886982495655698, 23⟩, ⟨-68974718444530266, 24⟩),
  (⟨24800707387708519, 10⟩, ⟨70149508426052565, 17⟩, ⟨-11346097334165468, 22⟩, ⟨-95569997234886171, 24⟩)]

/-- Entries 700 to 799. -/
def Pr_7 : List (Dec × Dec × Dec × Dec) := [
  (⟨24711074625634262, 10⟩, ⟨69749958709340654, 17⟩, ⟨-77810450995478905, 23⟩, ⟨-65540990593221663, 24⟩),
  (⟨24768965667622988, 10⟩, ⟨26191824740759206, 17⟩, ⟨-10083428325687232, 22⟩, ⟨-84934333702768455, 24⟩),
  (⟨24814235127720465, 10⟩, ⟨90601674464087811, 17⟩, ⟨-11884230584169301, 22⟩, ⟨-10010277989135094, 23⟩),
  (⟨24521286184645444, 10⟩, ⟨72350387512680125, 17⟩, ⟨-23241598980868846, 24⟩, ⟨-19576771509331872, 25⟩),
  (⟨24642014434659914, 10⟩, ⟨38302365875906275, 17⟩, ⟨-50341221671705180, 23⟩, ⟨-42403218254424778, 24⟩),
  (⟨24751609401934105, 10⟩, ⟨54601936186758993, 17⟩, ⟨-93932137610966238, 23⟩, ⟨-79120545746730775, 24⟩),
  (⟨24750063865318163, 10⟩, ⟨99279085046787607, 17⟩, ⟨-93319193353392254, 23⟩, ⟨-78604252969785420, 24⟩),
  (⟨24800137014475111, 10⟩, ⟨10823299905938244, 17⟩, ⟨-11323175363335171, 22⟩, ⟨-95376921798958678, 24⟩),
  (⟨24596613161794804, 10⟩, ⟨83648287290248347, 17⟩, ⟨-32285137340923916, 23⟩, ⟨-27194288886531603, 24⟩),
  (⟨24757138935214300, 10⟩, ⟨78880636165188756, 17⟩, ⟨-96132418090190888, 23⟩, ⟨-80973877276703414, 24⟩),
  (⟨24739236153072459, 10⟩, ⟨25354708455752129, 17⟩, ⟨-89009642241607836, 23⟩, ⟨-74974248963062955, 24⟩),
  (⟨24600269252459439, 10⟩, ⟨99715322917350768, 17⟩, ⟨-33739948735952868, 23⟩, ⟨-28419699853010187, 24⟩),
  (⟨24742696236131131, 10⟩, ⟨29331935491201688, 17⟩, ⟨-90386012773734158, 23⟩, ⟨-76133587932890029, 24⟩),
  (⟨24720363519257409, 10⟩, ⟨12312441379357242, 17⟩, ⟨-81502728090931421, 23⟩, ⟨-68651054797767692, 24⟩),
  (⟨24629913699500416, 10⟩, ⟨89981338825422053, 17⟩, ⟨-45530334572245549, 23⟩, ⟨-38350930906173120, 24⟩),
  (⟨24759029220977076, 10⟩, ⟨32475236610790703, 17⟩, ⟨-96882414025063308, 23⟩, ⟨-81605610879112227, 24⟩),
  (⟨24651183655587658, 10⟩, ⟨61112398089422149, 17⟩, ⟨-53989091950615576, 23⟩, ⟨-45475877885317440, 24⟩),
  (⟨24524488739312892, 10⟩, ⟨74292907689430665, 17⟩, ⟨-35980202409260850, 24⟩, ⟨-30306701445344358, 25⟩),
  (⟨24635160533570345, 10⟩, ⟨56342235841676536, 17⟩, ⟨-47615870736075739, 23⟩, ⟨-40107611459320923, 24⟩),
  (⟨24752080250479686, 10⟩, ⟨96710228809884446, 17⟩, ⟨-94121087576550184, 23⟩, ⟨-79279701332625610, 24⟩),
  (⟨24625229820958828, 10⟩, ⟨55842058433628239, 17⟩, ⟨-43666012347028907, 23⟩, ⟨-36780582400767878, 24⟩),
  (⟨24556383973094146, 10⟩, ⟨69174451278518823, 17⟩, ⟨-16283816861674906, 23⟩, ⟨-13716120059692126, 24⟩),
  (⟨24835038261706475, 10⟩, ⟨72230512116837386, 17⟩, ⟨-12711580708338742, 22⟩, ⟨-10707168265592185, 23⟩),
  (⟨24628416752803642, 10⟩, ⟨74001659016263643, 17⟩, ⟨-44934303890975863, 23⟩, ⟨-37848884705764415, 24⟩),
  (⟨24779457936721775, 10⟩, ⟨50001032248903399, 17⟩, ⟨-10500842203828420, 22⟩, ⟨-88450277732230694, 24⟩),
  (⟨24698932107828809, 10⟩, ⟨56840562288246077, 18⟩, ⟨-72978341646607688, 23⟩, ⟨-61470827403983910, 24⟩),
  (⟨24865940929495655, 10⟩, ⟨38955877203058631, 17⟩, ⟨-13940570093724507, 22⟩, ⟨-11742365732207793, 23⟩),
  (⟨24779332722365982, 10⟩, ⟨68634870900808709, 17⟩, ⟨-10495936046170095, 22⟩, ⟨-88408952379553855, 24⟩),
  (⟨24637037017431534, 10⟩, ⟨37069134225082667, 17⟩, ⟨-48361456266134152, 23⟩, ⟨-40735630107032403, 24⟩),
  (⟨24868330006438871, 10⟩, ⟨39122727732585616, 17⟩, ⟨-14035593828176020, 22⟩, ⟨-11822405747477480, 23⟩),
  (⟨24676187482593670, 10⟩, ⟨39341722212399355, 17⟩, ⟨-63933240294102446, 23⟩, ⟨-53851993493180228, 24⟩),
  (⟨24779976791377533, 10⟩, ⟨95604431493172781, 17⟩, ⟨-10521660495321563, 22⟩, ⟨-88625633539768471, 24⟩),
  (⟨24608903984459653, 10⟩, ⟨37053218658555087, 17⟩, ⟨-37171831991724746, 23⟩, ⟨-31310430150880442, 24⟩),
  (⟨24657617604543786, 10⟩, ⟨47978631311838005, 17⟩, ⟨-56547606392629683, 23⟩, ⟨-47630955626563427, 24⟩),
  (⟨24761091848616875, 10⟩, ⟨32757850494354546, 17⟩, ⟨-97702814131195825, 23⟩, ⟨-82296647043930665, 24⟩),
  (⟨24767265045310864, 10⟩, ⟨89326518492552098, 17⟩, ⟨-10016038939332847, 22⟩, ⟨-84366702095364946, 24⟩),
  (⟨24797051810202436, 10⟩, ⟨17176852387336328, 17⟩, ⟨-11200489816716647, 22⟩, ⟨-94343521766703860, 24⟩),
  (⟨24726295417450010, 10⟩, ⟨54281654255674960, 17⟩, ⟨-83863748685129525, 23⟩, ⟨-70639780304110423, 24⟩),
  (⟨24860656069943621, 10⟩, ⟨75930755330137489, 17⟩, ⟨-13730517320719697, 22⟩, ⟨-11565434913230940, 23⟩),
  (⟨24812421127333194, 10⟩, ⟨71110042852111510, 17⟩, ⟨-11812003064152580, 22⟩, ⟨-99494395908296704, 24⟩),
  (⟨24739051865892070, 10⟩, ⟨34211877940612345, 17⟩, ⟨-88936696201512464, 23⟩, ⟨-74912805343773547, 24⟩),
  (⟨24583021637690058, 10⟩, ⟨84345551508841266, 17⟩, ⟨-26879276572748069, 23⟩, ⟨-22640845676494617, 24⟩),
  (⟨24540896272920319, 10⟩, ⟨65657247158345200, 18⟩, ⟨-10121253692687891, 23⟩, ⟨-85252942834454307, 25⟩),
  (⟨24748772840132592, 10⟩, ⟨28056634127729108, 17⟩, ⟨-92802868604664772, 23⟩, ⟨-78169344354471503, 24⟩),
  (⟨24785151145056151, 10⟩, ⟨58065296886190254, 17⟩, ⟨-10727315766938253, 22⟩, ⟨-90357900870189043, 24⟩),
  (⟨24571578044719836, 10⟩, ⟨96318005072112900, 17⟩, ⟨-22328181714081269, 23⟩, ⟨-18807385498528657, 24⟩),
  (⟨24657060381022338, 10⟩, ⟨30362851898959609, 17⟩, ⟨-56325275835893880, 23⟩, ⟨-47443683033471102, 24⟩),
  (⟨24605926377288015, 10⟩, ⟨42527643690610240, 17⟩, ⟨-35987737196107303, 23⟩, ⟨-30313048117128256, 24⟩),
  (⟨24858606324048387, 10⟩, ⟨47726682386787611, 17⟩, ⟨-13648878613484558, 22⟩, ⟨-11496669321019530, 23⟩),
  (⟨24804980698460657, 10⟩, ⟨11346203129669274, 17⟩, ⟨-11515829976861060, 22⟩, ⟨-96999682501576217, 24⟩),
  (⟨24555586128364466, 10⟩, ⟨52814635003249122, 17⟩, ⟨-15965831656275452, 23⟩, ⟨-13448276022172280, 24⟩),
  (⟨24863415916637145, 10⟩, ⟨76197278892908871, 17⟩, ⟨-13840288435939149, 22⟩, ⟨-11657896883801237, 23⟩),
  (⟨24816769439962846, 10⟩, ⟨81356998638899969, 17⟩, ⟨-11984993469443757, 22⟩, ⟨-10095152183172381, 23⟩),
  (⟨24775721851635743, 10⟩, ⟨43927536944675427, 17⟩, ⟨-10352219117013219, 22⟩, ⟨-87198401639717540, 24⟩),
  (⟨24517046627044398, 10⟩, ⟨96810047268022303, 17⟩, ⟨-63889245570504765, 25⟩, ⟨-53814936032022032, 26⟩),
  (⟨24815929541057409, 10⟩, ⟨73908469779976971, 17⟩, ⟨-11951557731172954, 22⟩, ⟨-10066988724672295, 23⟩),
  (⟨24693222115749633, 10⟩, ⟨90706118056259233, 17⟩, ⟨-70710632866764328, 23⟩, ⟨-59560699935162073, 24⟩),
  (⟨24658346591512579, 10⟩, ⟨51722058307586871, 17⟩, ⟨-56837702330111980, 23⟩, ⟨-47875308086501793, 24⟩),
  (⟨24518982695978093, 10⟩, ⟨49452693998598052, 17⟩, ⟨-14070603115293717, 24⟩, ⟨-11851894631403751, 25⟩),
  (⟨24760373290839549, 10⟩, ⟨52800587952416600, 18⟩, ⟨-97415922287159967, 23⟩, ⟨-82054993443281065, 24⟩),
  (⟨24782023384291800, 10⟩, ⟨39489490556710416, 17⟩, ⟨-10602838425812093, 22⟩, ⟨-89309408265475459, 24⟩),
  (⟨24832495590343652, 10⟩, ⟨16659852573003597, 17⟩, ⟨-12610227551362058, 22⟩, ⟨-10621796876234884, 23⟩),
  (⟨24694086547365203, 10⟩, ⟨86618133990732549, 17⟩, ⟨-71054289028945155, 23⟩, ⟨-59850167031222277, 24⟩),
  (⟨24682266127980426, 10⟩, ⟨26874263446583657, 17⟩, ⟨-66350462908460243, 23⟩, ⟨-55888058862323919, 24⟩),
  (⟨24707158837956199, 10⟩, ⟨19653895093184082, 17⟩, ⟨-76250994322935934, 23⟩, ⟨-64227435231466801, 24⟩),
  (⟨24880150920879352, 10⟩, ⟨98128232513297919, 17⟩, ⟨-14505993193780796, 22⟩, ⟨-12218630676156426, 23⟩),
  (⟨24839316397807891, 10⟩, ⟨66683900911966709, 17⟩, ⟨-12881717097330714, 22⟩, ⟨-10850476874240855, 23⟩),
  (⟨24595482663462749, 10⟩, ⟨48915864044366875, 17⟩, ⟨-31834111845378483, 23⟩, ⟨-26814382879270912, 24⟩),
  (⟨24842482113366141, 10⟩, ⟨58888463472768926, 17⟩, ⟨-13007599162328032, 22⟩, ⟨-10956509356154161, 23⟩),
  (⟨24529826741963075, 10⟩, ⟨70551004532302231, 17⟩, ⟨-57210068973295559, 24⟩, ⟨-48188958481093934, 25⟩),
  (⟨24859326264549266, 10⟩, ⟨22969073234304194, 17⟩, ⟨-13677415033372804, 22⟩, ⟨-11520706005083582, 23⟩),
  (⟨24746851389429620, 10⟩, ⟨77504398615329206, 18⟩, ⟨-92037823751506490, 23⟩, ⟨-77524934806875472, 24⟩),
  (⟨24569347827413366, 10⟩, ⟨38499097095466350, 17⟩, ⟨-21438836100159564, 23⟩, ⟨-18058275426932329, 24⟩),
  (⟨24832032655866724, 10⟩, ⟨20592390834394181, 17⟩, ⟨-12591830451375302, 22⟩, ⟨-10606300703911648, 23⟩),
  (⟨24737300799525599, 10⟩, ⟨35690432851457410, 17⟩, ⟨-88240286426420538, 23⟩, ⟨-74326208223021988, 24⟩),
  (⟨24874934363241666, 10⟩, ⟨63936702331156947, 17⟩, ⟨-14298374001910798, 22⟩, ⟨-12043749701592810, 23⟩),
  (⟨24724021522159977, 10⟩, ⟨24769955889534789, 17⟩, ⟨-82958156493892173, 23⟩, ⟨-69876985479921188, 24⟩),
  (⟨24785681766927205, 10⟩, ⟨74941289530150179, 17⟩, ⟨-10748487826984401, 22⟩, ⟨-90536236526976883, 24⟩),
  (⟨24701489078525733, 10⟩, ⟨71881677333866656, 17⟩, ⟨-73997983305433210, 23⟩, ⟨-62329687923548602, 24⟩),
  (⟨24747650696664448, 10⟩, ⟨76799370136920364, 17⟩, ⟨-92358486308395883, 23⟩, ⟨-77795034020487630, 24⟩),
  (⟨24547428280937430, 10⟩, ⟨21152175549499841, 17⟩, ⟨-12719872657680076, 23⟩, ⟨-10714152707486904, 24⟩),
  (⟨24738158862140574, 10⟩, ⟨21701860377424398, 17⟩, ⟨-88581015598627875, 23⟩, ⟨-74613209868492155, 24⟩),
  (⟨24832329850008637, 10⟩, ⟨88452530905542859, 17⟩, ⟨-12603920948488064, 22⟩, ⟨-10616484723505380, 23⟩),
  (⟨24555496868578368, 10⟩, ⟨49338111200359314, 17⟩, ⟨-15930191222019906, 23⟩, ⟨-13418255512891119, 24⟩),
  (⟨24667290505248476, 10⟩, ⟨36694934185641004, 17⟩, ⟨-60394454063896380, 23⟩, ⟨-50871217105714820, 24⟩),
  (⟨24550123741219491, 10⟩, ⟨35154260576369856, 17⟩, ⟨-13792521096719358, 23⟩, ⟨-11617661688009228, 24⟩),
  (⟨24666314026680565, 10⟩, ⟨65909776610493842, 17⟩, ⟨-60007231777179719, 23⟩, ⟨-50545053564358949, 24⟩),
  (⟨24541417186311446, 10⟩, ⟨92360657928922973, 17⟩, ⟨-10331854025175755, 23⟩, ⟨-87026863205551830, 25⟩),
  (⟨24740772320173183, 10⟩, ⟨65619780286479723, 17⟩, ⟨-89622238360361524, 23⟩, ⟨-75490248497097428, 24⟩),
  (⟨24617794379283004, 10⟩, ⟨95247165801310152, 17⟩, ⟨-40710209422724630, 23⟩, ⟨-34290862200219241, 24⟩),
  (⟨24558656856516907, 10⟩, ⟨71127308869558437, 17⟩, ⟨-17187910468681588, 23⟩, ⟨-14477652602353520, 24⟩),
  (⟨24801125164560089, 10⟩, ⟨26279501535358873, 17⟩, ⟨-11362539489027163, 22⟩, ⟨-95708492141847337, 24⟩),
  (⟨24880641715422240, 10⟩, ⟨60009529405580841, 17⟩, ⟨-14525362427206368, 22⟩, ⟨-12234945692063698, 23⟩),
  (⟨24694273079646397, 10⟩, ⟨29400425542116615, 17⟩, ⟨-71126204544177547, 23⟩, ⟨-59910742622894745, 24⟩),
  (⟨24602236376255429, 10⟩, ⟨10413763442679069, 17⟩, ⟨-34518800055358329, 23⟩, ⟨-29075738808518072, 24⟩),
  (⟨24680578328338950, 10⟩, ⟨51266060574184491, 17⟩, ⟨-65680128171140973, 23⟩, ⟨-55323425164011279, 24⟩),
  (⟨24738470873986590, 10⟩, ⟨28134477980318717, 17⟩, ⟨-88705370942364231, 23⟩, ⟨-74717956368605810, 24⟩),
  (⟨24740273143358752, 10⟩, ⟨62862951659711819, 17⟩, ⟨-89423586281965114, 23⟩, ⟨-75322920666003643, 24⟩),
  (⟨24732928322756495, 10⟩, ⟨35087946501648071, 17⟩, ⟨-86501154935144143, 23⟩, ⟨-72861309880294941, 24⟩),
  (⟨24577320847170847, 10⟩, ⟨48989974358057065, 17⟩, ⟨-24610439722048826, 23⟩, ⟨-20729768015501828, 24⟩)]

/-- Entries 800 to 899. -/
def Pr_8 : List (Dec × Dec × Dec × Dec) := [
  (⟨24773709181378665, 10⟩, ⟨28080800141730755, 18⟩, ⟨-10272003685430705, 22⟩, ⟨-86522734196653086, 24⟩),
  (⟨24672517347570676, 10⟩, ⟨22323459440814175, 17⟩, ⟨-62472805066341317, 23⟩, ⟨-52621845482211066, 24⟩),
  (⟨24684649314778382, 10⟩, ⟨45355009412460578, 17⟩, ⟨-67299085924759762, 23⟩, ⟨-56687099240478429, 24⟩),
  (⟨24632381158473119, 10⟩, ⟨85124688170585983, 17⟩, ⟨-46511547755814911, 23⟩, ⟨-39177422504814560, 24⟩),
  (⟨24535289174272101, 10⟩, ⟨53229438785297234, 17⟩, ⟨-78929440498381388, 24⟩, ⟨-66483533394932283, 25⟩),
  (⟨24568162108507892, 10⟩, ⟨43426242754762179, 17⟩, ⟨-20967424609637773, 23⟩, ⟨-17661197969205984, 24⟩),
  (⟨24764453091541328, 10⟩, ⟨48219732537465976, 17⟩, ⟨-99040328809886753, 23⟩, ⟨-83423257105340933, 24⟩),
  (⟨24795518802963491, 10⟩, ⟨42040678951926569, 17⟩, ⟨-11139614928558392, 22⟩, ⟨-93830762822230524, 24⟩),
  (⟨24861901704483875, 10⟩, ⟨27816612224179793, 17⟩, ⟨-13779869780508558, 22⟩, ⟨-11607005281496278, 23⟩),
  (⟨24778929132726933, 10⟩, ⟨22280485356886537, 18⟩, ⟨-10479619558338664, 22⟩, ⟨-88271515986139777, 24⟩),
  (⟨24648081723509673, 10⟩, ⟨29964912549840073, 17⟩, ⟨-52754091607333200, 23⟩, ⟨-44435617292477547, 24⟩),
  (⟨24840512749288827, 10⟩, ⟨25952913044424575, 17⟩, ⟨-12929138740014388, 22⟩, ⟨-10890420884297117, 23⟩),
  (⟨24736423338393038, 10⟩, ⟨61168720125984111, 17⟩, ⟨-87892298685513939, 23⟩, ⟨-74033092568742590, 24⟩),
  (⟨24679418669296349, 10⟩, ⟨67742992374878364, 17⟩, ⟨-65219541103069865, 23⟩, ⟨-54935465290888810, 24⟩),
  (⟨24554985405328958, 10⟩, ⟨98899015755310282, 17⟩, ⟨-15728733224724427, 23⟩, ⟨-13248564211314683, 24⟩),
  (⟨24557495804288033, 10⟩, ⟨53077945804335902, 17⟩, ⟨-16725396027382003, 23⟩, ⟨-14088069271854553, 24⟩),
  (⟨24768800338703464, 10⟩, ⟨36225088580146725, 18⟩, ⟨-10076762771342468, 22⟩, ⟨-84878188669675916, 24⟩),
  (⟨24564779690618236, 10⟩, ⟨70995736882253224, 17⟩, ⟨-19623199335576067, 23⟩, ⟨-16528935465707990, 24⟩),
  (⟨24810100286201751, 10⟩, ⟨33409660656494955, 17⟩, ⟨-11719544052971375, 22⟩, ⟨-98715598830968616, 24⟩),
  (⟨24597992774709086, 10⟩, ⟨27065105367142728, 17⟩, ⟨-32831613607665529, 23⟩, ⟨-27654594608959714, 24⟩),
  (⟨24588149921578555, 10⟩, ⟨43084110212413018, 17⟩, ⟨-28917357454246593, 23⟩, ⟨-24357553884371233, 24⟩),
  (⟨24807853446890614, 10⟩, ⟨75969448821814556, 18⟩, ⟨-11630075669818684, 22⟩, ⟨-97961992293083099, 24⟩),
  (⟨24571808076766082, 10⟩, ⟨73214957407240278, 17⟩, ⟨-22418755687554625, 23⟩, ⟨-18883677408772858, 24⟩),
  (⟨24824317331381636, 10⟩, ⟨64753197688692454, 17⟩, ⟨-12285137024240424, 22⟩, ⟨-10347967912291949, 23⟩),
  (⟨24756606570923543, 10⟩, ⟨59700881167733910, 17⟩, ⟨-95919912830496519, 23⟩, ⟨-80794880688861394, 24⟩),
  (⟨24713978486572159, 10⟩, ⟨26858752788710960, 17⟩, ⟨-78963725773539133, 23⟩, ⟨-66512412431974884, 24⟩),
  (⟨24559684720505318, 10⟩, ⟨73737501879511846, 17⟩, ⟨-17596836584258505, 23⟩, ⟨-14822097626787407, 24⟩),
  (⟨24827337922881115, 10⟩, ⟨51359924320640915, 17⟩, ⟨-12405224664696664, 22⟩, ⟨-10449119657498540, 23⟩),
  (⟨24655398084517485, 10⟩, ⟨67714365533370713, 17⟩, ⟨-55665600167428085, 23⟩, ⟨-46888027639775898, 24⟩),
  (⟨24690465095075592, 10⟩, ⟨90494802915964689, 17⟩, ⟨-69614047930523995, 23⟩, ⟨-58637028859216603, 24⟩),
  (⟨24616939250164204, 10⟩, ⟨90810315023817789, 17⟩, ⟨-40369914166157170, 23⟩, ⟨-34004226048850551, 24⟩),
  (⟨24767766868752008, 10⟩, ⟨11638767799728322, 17⟩, ⟨-10035689454004239, 22⟩, ⟨-84532221531475706, 24⟩),
  (⟨24558803619096400, 10⟩, ⟨99162618258625634, 17⟩, ⟨-17247398846167014, 23⟩, ⟨-14527760616627911, 24⟩),
  (⟨24877264390934473, 10⟩, ⟨82637324482524033, 18⟩, ⟨-14390827016217897, 22⟩, ⟨-12121624358062396, 23⟩),
  (⟨24603379436505032, 10⟩, ⟨15337287403870592, 17⟩, ⟨-34973636305800238, 23⟩, ⟨-29458854675734952, 24⟩),
  (⟨24655958389172782, 10⟩, ⟨64441034173573042, 17⟩, ⟨-55888325370535841, 23⟩, ⟨-47075632649835623, 24⟩),
  (⟨24561384044873621, 10⟩, ⟨71768676812786691, 17⟩, ⟨-18272647013365185, 23⟩, ⟨-15391343588097353, 24⟩),
  (⟨24583559295953717, 10⟩, ⟨72822751006228059, 17⟩, ⟨-27092666293079108, 23⟩, ⟨-22820587259713550, 24⟩),
  (⟨24829273088650121, 10⟩, ⟨74225936088086253, 18⟩, ⟨-12482019130622233, 22⟩, ⟨-10513804867575676, 23⟩),
  (⟨24874804591684709, 10⟩, ⟨62718934450619512, 17⟩, ⟨-14293207628560366, 22⟩, ⟨-12039397982475007, 23⟩),
  (⟨24851041928865504, 10⟩, ⟨85952117293449870, 18⟩, ⟨-13347856957203433, 22⟩, ⟨-11243113952938916, 23⟩),
  (⟨24637403123660977, 10⟩, ⟨91630930265758359, 17⟩, ⟨-48509241381257695, 23⟩, ⟨-40860111879290644, 24⟩),
  (⟨24725877272663396, 10⟩, ⟨88947712700425585, 17⟩, ⟨-83698814716590017, 23⟩, ⟨-70500853777631634, 24⟩),
  (⟨24801217518304065, 10⟩, ⟨94078234566755603, 17⟩, ⟨-11366482426387208, 22⟩, ⟨-95741704135495780, 24⟩),
  (⟨24710053098131008, 10⟩, ⟨22412014039028594, 17⟩, ⟨-77402266151324570, 23⟩, ⟨-65197169953593585, 24⟩),
  (⟨24516636359379282, 10⟩, ⟨23358394614141786, 17⟩, ⟨-47279126055652667, 25⟩, ⟨-39823966015173475, 26⟩),
  (⟨24669502710184334, 10⟩, ⟨65785531499656369, 17⟩, ⟨-61275492804304575, 23⟩, ⟨-51613330164546877, 24⟩),
  (⟨24866552057329426, 10⟩, ⟨95322700352672318, 17⟩, ⟨-13965101266091365, 22⟩, ⟨-11763028732058937, 23⟩),
  (⟨24545183184696622, 10⟩, ⟨50721242025520641, 18⟩, ⟨-11826269221082326, 23⟩, ⟨-99614562035747657, 25⟩),
  (⟨24729660843817862, 10⟩, ⟨69252386945348643, 17⟩, ⟨-85202907750316412, 23⟩, ⟨-71767775458634607, 24⟩),
  (⟨24647248680516887, 10⟩, ⟨13246620465168291, 17⟩, ⟨-52422092397886280, 23⟩, ⟨-44155969034628714, 24⟩),
  (⟨24830924367368887, 10⟩, ⟨87871808434643683, 17⟩, ⟨-12548017016638254, 22⟩, ⟨-10569395945267794, 23⟩),
  (⟨24558229268093389, 10⟩, ⟨78282118489507546, 17⟩, ⟨-17018126159443716, 23⟩, ⟨-14334640556127461, 24⟩),
  (⟨24609580771830459, 10⟩, ⟨49200516014135409, 17⟩, ⟨-37441500332877903, 23⟩, ⟨-31537576118866620, 24⟩),
  (⟨24798730218527308, 10⟩, ⟨56375983305148969, 17⟩, ⟨-11267402686875027, 22⟩, ⟨-94907139601777289, 24⟩),
  (⟨24573099052056386, 10⟩, ⟨26079469737841221, 17⟩, ⟨-22930353026046249, 23⟩, ⟨-19314604050639320, 24⟩),
  (⟨24830133430532347, 10⟩, ⟨69946858105201204, 17⟩, ⟨-12516487025262455, 22⟩, ⟨-10542837727936737, 23⟩),
  (⟨24753757367604664, 10⟩, ⟨28200485553905952, 17⟩, ⟨-94785418707339361, 23⟩, ⟨-79839278096887871, 24⟩),
  (⟨24692575589441345, 10⟩, ⟨98603106472214974, 17⟩, ⟨-70453797791840532, 23⟩, ⟨-59344363633107119, 24⟩),
  (⟨24726096536404402, 10⟩, ⟨56328648672466597, 17⟩, ⟨-83784727218007000, 23⟩, ⟨-70573219255214289, 24⟩),
  (⟨24878105228753816, 10⟩, ⟨82204956896440595, 17⟩, ⟨-14424564566657971, 22⟩, ⟨-12150042037792329, 23⟩),
  (⟨24838655435166992, 10⟩, ⟨41799381845175620, 17⟩, ⟨-12855329014537143, 22⟩, ⟨-10828249768961037, 23⟩),
  (⟨24769248597435593, 10⟩, ⟨37480517520806256, 17⟩, ⟨-10094726466721333, 22⟩, ⟨-85029499756397944, 24⟩),
  (⟨24578617169241877, 10⟩, ⟨34952566260349360, 17⟩, ⟨-25125480129387223, 23⟩, ⟨-21163594809468826, 24⟩),
  (⟨24750359754177728, 10⟩, ⟨16962346972065956, 17⟩, ⟨-93433606031526782, 23⟩, ⟨-78700624603228288, 24⟩),
  (⟨24626506571189766, 10⟩, ⟨89001250897033291, 17⟩, ⟨-44175145452974380, 23⟩, ⟨-37209433380045825, 24⟩),
  (⟨24634512884187098, 10⟩, ⟨27051421036479817, 17⟩, ⟨-47357109863162912, 23⟩, ⟨-39889653026738925, 24⟩),
  (⟨24569589402828244, 10⟩, ⟨50358987936654909, 17⟩, ⟨-21535391944234700, 23⟩, ⟨-18139605962705949, 24⟩),
  (⟨24744220595090808, 10⟩, ⟨54222511882216751, 17⟩, ⟨-90993300821505039, 23⟩, ⟨-76645116393618784, 24⟩),
  (⟨24788096438246639, 10⟩, ⟨43280274641039618, 17⟩, ⟨-10844402959295283, 22⟩, ⟨-91344145066782219, 24⟩),
  (⟨24674802335763560, 10⟩, ⟨43685454014490210, 17⟩, ⟨-63382485199190863, 23⟩, ⟨-53388083645171944, 24⟩),
  (⟨24591229754718477, 10⟩, ⟨35736359258332051, 17⟩, ⟨-30142037064569531, 23⟩, ⟨-25389121158342558, 24⟩),
  (⟨24805085374274282, 10⟩, ⟨60770915383656454, 17⟩, ⟨-11520189931057651, 22⟩, ⟨-97036407094909092, 24⟩),
  (⟨24577461626789765, 10⟩, ⟨39061666104096315, 17⟩, ⟨-24666038474958533, 23⟩, ⟨-20776599736624505, 24⟩),
  (⟨24863833469189932, 10⟩, ⟨69914509252504919, 17⟩, ⟨-13856871168906742, 22⟩, ⟨-11671864785690176, 23⟩),
  (⟨24582516755076074, 10⟩, ⟨17555091417956559, 17⟩, ⟨-26675808199807085, 23⟩, ⟨-22469461003274847, 24⟩),
  (⟨24632748254087050, 10⟩, ⟨84344617459377946, 17⟩, ⟨-46657525222753213, 23⟩, ⟨-39300381666020054, 24⟩),
  (⟨24730656593229398, 10⟩, ⟨94305414760038231, 17⟩, ⟨-85599953264840874, 23⟩, ⟨-72102213262292114, 24⟩),
  (⟨24598504288151432, 10⟩, ⟨18593744691344549, 17⟩, ⟨-33034725862903038, 23⟩, ⟨-27825679318527369, 24⟩),
  (⟨24518893855518652, 10⟩, ⟨42094991961389017, 17⟩, ⟨-13714322902655931, 24⟩, ⟨-11551794095212270, 25⟩),
  (⟨24606851874342915, 10⟩, ⟨64712117070819186, 17⟩, ⟨-36356726466716592, 23⟩, ⟨-30623853696643637, 24⟩),
  (⟨24529353383700284, 10⟩, ⟨41220605664923360, 17⟩, ⟨-55315669451580774, 24⟩, ⟨-46593275386547596, 25⟩),
  (⟨24522604021561849, 10⟩, ⟨41342785478089616, 17⟩, ⟨-28470826412662886, 24⟩, ⟨-23981433627752752, 25⟩),
  (⟨24599489283652497, 10⟩, ⟨41210746152547506, 17⟩, ⟨-33427397230040621, 23⟩, ⟨-28156432707699822, 24⟩),
  (⟨24573245217636614, 10⟩, ⟨52553206434836763, 17⟩, ⟨-22989541843289730, 23⟩, ⟨-19364459740518360, 24⟩),
  (⟨24749454437986990, 10⟩, ⟨49144871928639811, 18⟩, ⟨-93073046664798997, 23⟩, ⟨-78396919666928961, 24⟩),
  (⟨24766301024664058, 10⟩, ⟨95223482576558338, 17⟩, ⟨-99777194671657916, 23⟩, ⟨-84043931036630928, 24⟩),
  (⟨24591433791861250, 10⟩, ⟨13222864429504588, 17⟩, ⟨-30222295282208309, 23⟩, ⟨-25456723942030288, 24⟩),
  (⟨24704208071212433, 10⟩, ⟨19997951041319961, 18⟩, ⟨-75076655117392845, 23⟩, ⟨-63238270487668777, 24⟩),
  (⟨24654548999875463, 10⟩, ⟨16714914558471727, 17⟩, ⟨-55325857059754968, 23⟩, ⟨-46601856572274825, 24⟩),
  (⟨24622897652524812, 10⟩, ⟨29369676432314251, 18⟩, ⟨-42736312165873279, 23⟩, ⟨-35997481030089819, 24⟩),
  (⟨24591928688936345, 10⟩, ⟨37542650444679571, 17⟩, ⟨-30420102782819933, 23⟩, ⟨-25623340371712832, 24⟩),
  (⟨24839709238899713, 10⟩, ⟨65164294259754973, 17⟩, ⟨-12897335902420439, 22⟩, ⟨-10863632844221318, 23⟩),
  (⟨24527727786613624, 10⟩, ⟨69030126298636085, 17⟩, ⟨-48861085687555815, 24⟩, ⟨-41156475980440798, 25⟩),
  (⟨24583275238213548, 10⟩, ⟨87296360228100522, 17⟩, ⟨-26980260930170761, 23⟩, ⟨-22725906420073749, 24⟩),
  (⟨24754262690682481, 10⟩, ⟨59133349245583433, 17⟩, ⟨-94987636071320525, 23⟩, ⟨-80009609025200392, 24⟩),
  (⟨24871390015255776, 10⟩, ⟨19639472912758704, 17⟩, ⟨-14157225029496598, 22⟩, ⟨-11924857658751680, 23⟩),
  (⟨24632108823255422, 10⟩, ⟨37455609794347478, 18⟩, ⟨-46399992461580541, 23⟩, ⟨-39083457691650017, 24⟩),
  (⟨24738099937680243, 10⟩, ⟨58605913913795527, 17⟩, ⟨-88559046823060332, 23⟩, ⟨-74594705216554060, 24⟩),
  (⟨24721064614430848, 10⟩, ⟨53452230149486935, 17⟩, ⟨-81783217756256622, 23⟩, ⟨-68887315740627958, 24⟩)]

/-- Entries 900 to 999. -/
def Pr_9 : List (Dec × Dec × Dec × Dec) := [
  (⟨24718598195183985, 10⟩, ⟨73330481720484508, 17⟩, ⟨-80803015581594244, 23⟩, ⟨-68061675731000779, 24⟩),
  (⟨24517705125321350, 10⟩, ⟨84835758088542101, 17⟩, ⟨-90032708722919872, 25⟩, ⟨-75835994265526351, 26⟩),
  (⟨24710881740986998, 10⟩, ⟨77828692110412534, 17⟩, ⟨-77734054440133815, 23⟩, ⟨-65476640549607124, 24⟩),
  (⟨24852667495401269, 10⟩, ⟨44077138318393194, 17⟩, ⟨-13412653314915422, 22⟩, ⟨-11297692964073593, 23⟩),
  (⟨24704896000386793, 10⟩, ⟨18995362192552490, 18⟩, ⟨-75350267862054612, 23⟩, ⟨-63468738889980244, 24⟩),
  (⟨24570630669472767, 10⟩, ⟨14850178327913266, 17⟩, ⟨-21948132684011761, 23⟩, ⟨-18487264106272542, 24⟩),
  (⟨24786250557135246, 10⟩, ⟨38520288160315741, 17⟩, ⟨-10770966009963833, 22⟩, ⟨-90725573866673485, 24⟩),
  (⟨24811872523078364, 10⟩, ⟨36275170404976165, 17⟩, ⟨-11790044343750806, 22⟩, ⟨-99309434085189497, 24⟩),
  (⟨24613154395316374, 10⟩, ⟨71404041443873079, 17⟩, ⟨-38863755330861691, 23⟩, ⟨-32735564310060033, 24⟩),
  (⟨24673726451084614, 10⟩, ⟨29626817129868555, 17⟩, ⟨-62954003999295030, 23⟩, ⟨-53027167059643123, 24⟩),
  (⟨24799948331215954, 10⟩, ⟨55140903477524150, 17⟩, ⟨-11315846950046114, 22⟩, ⟨-95315193398686420, 24⟩),
  (⟨24840982707802551, 10⟩, ⟨42371198301256241, 18⟩, ⟨-12947744482756558, 22⟩, ⟨-10906092799758902, 23⟩),
  (⟨24866437986397571, 10⟩, ⟨63228506070335533, 17⟩, ⟨-13960436561106672, 22⟩, ⟨-11759099576250037, 23⟩),
  (⟨24646082896555630, 10⟩, ⟨78088072595940394, 17⟩, ⟨-51960992855507666, 23⟩, ⟨-43767577496179314, 24⟩),
  (⟨24599072190417480, 10⟩, ⟨47534724958710151, 17⟩, ⟨-33261754228321346, 23⟩, ⟨-28016908951204096, 24⟩),
  (⟨24684391494098622, 10⟩, ⟨31290542593517401, 17⟩, ⟨-67195981009430610, 23⟩, ⟨-56600252316970745, 24⟩),
  (⟨24852360477488628, 10⟩, ⟨86718399902622945, 17⟩, ⟨-13400611595381907, 22⟩, ⟨-11287550030617029, 23⟩),
  (⟨24587175942577808, 10⟩, ⟨40577699982347359, 17⟩, ⟨-28529867664482909, 23⟩, ⟨-24031165020909344, 24⟩),
  (⟨24877921739461613, 10⟩, ⟨58586542243588102, 17⟩, ⟨-14417172529542182, 22⟩, ⟨-12143815606395616, 23⟩),
  (⟨24669159053960755, 10⟩, ⟨41347988714278772, 17⟩, ⟨-61137835108513604, 23⟩, ⟨-51497378879989427, 24⟩),
  (⟨24842604747049198, 10⟩, ⟨38290505227359617, 17⟩, ⟨-13012394864307495, 22⟩, ⟨-10960548852832341, 23⟩),
  (⟨24652790360258417, 10⟩, ⟨31772213420542494, 17⟩, ⟨-54626975182906296, 23⟩, ⟨-46013177160572496, 24⟩),
  (⟨24812088528692280, 10⟩, ⟨48676460879675931, 17⟩, ⟨-11798685069064282, 22⟩, ⟨-99382216300077567, 24⟩),
  (⟨24622227330777575, 10⟩, ⟨74606712462134939, 17⟩, ⟨-42472549196180937, 23⟩, ⟨-35775309251179935, 24⟩),
  (⟨24848687496531480, 10⟩, ⟨94798253578430614, 17⟩, ⟨-13254554703679715, 22⟩, ⟨-11164523968659302, 23⟩),
  (⟨24591427090367735, 10⟩, ⟨47823027478802893, 17⟩, ⟨-30221006018087527, 23⟩, ⟨-25455637974187525, 24⟩),
  (⟨24815942613993725, 10⟩, ⟨41233214579183053, 17⟩, ⟨-11951947731272002, 22⟩, ⟨-10067317228009521, 23⟩),
  (⟨24638707025948199, 10⟩, ⟨49613373668701544, 17⟩, ⟨-49026183859846112, 23⟩, ⟨-41295540818371960, 24⟩),
  (⟨24573794630278610, 10⟩, ⟨58932433739534495, 17⟩, ⟨-23208318781032888, 23⟩, ⟨-19548739063349576, 24⟩),
  (⟨24569305225272691, 10⟩, ⟨49521974300684624, 17⟩, ⟨-21422329961763432, 23⟩, ⟨-18044372041879157, 24⟩),
  (⟨24686839890490184, 10⟩, ⟨90063589633154828, 17⟩, ⟨-68172143053587210, 23⟩, ⟨-57422489259887903, 24⟩),
  (⟨24601311759255864, 10⟩, ⟨48505357195941834, 17⟩, ⟨-34152558236068397, 23⟩, ⟨-28767247451305399, 24⟩),
  (⟨24575064091152074, 10⟩, ⟨64586049528987632, 17⟩, ⟨-23713458614303612, 23⟩, ⟨-19974226445019960, 24⟩),
  (⟨24815800968462969, 10⟩, ⟨76523233774300725, 17⟩, ⟨-11946454288819940, 22⟩, ⟨-10062690013342741, 23⟩),
  (⟨24639320857324922, 10⟩, ⟨40597981669484473, 17⟩, ⟨-49269970379675047, 23⟩, ⟨-41500886113232038, 24⟩),
  (⟨24551297325937939, 10⟩, ⟨95625623091283440, 17⟩, ⟨-14261707497725938, 23⟩, ⟨-12012864917156771, 24⟩),
  (⟨24535345913642882, 10⟩, ⟨32727832290920567, 17⟩, ⟨-79146961189886051, 24⟩, ⟨-66666754561412438, 25⟩),
  (⟨24629582649913621, 10⟩, ⟨22268931243730483, 17⟩, ⟨-45395969823079608, 23⟩, ⟨-38237753323361563, 24⟩),
  (⟨24705791347157806, 10⟩, ⟨80417563695813543, 17⟩, ⟨-75709505777281093, 23⟩, ⟨-63771330746490059, 24⟩),
  (⟨24593488463258971, 10⟩, ⟨25866994462399118, 17⟩, ⟨-31040022541684624, 23⟩, ⟨-26145508725250117, 24⟩),
  (⟨24810979861328416, 10⟩, ⟨10178660823713048, 17⟩, ⟨-11754435847350665, 22⟩, ⟨-99009498010055317, 24⟩),
  (⟨24655828426486813, 10⟩, ⟨69482542906888567, 17⟩, ⟨-55836834573708465, 23⟩, ⟨-47032261125993710, 24⟩),
  (⟨24683817082563709, 10⟩, ⟨91140372169076000, 18⟩, ⟨-66966632699481632, 23⟩, ⟨-56407068557814658, 24⟩),
  (⟨24681742930200035, 10⟩, ⟨18415797661789957, 17⟩, ⟨-66142029961919514, 23⟩, ⟨-55712492449152284, 24⟩),
  (⟨24668526615226595, 10⟩, ⟨64723504320117198, 18⟩, ⟨-60884901983768143, 23⟩, ⟨-51284329253138926, 24⟩),
  (⟨24521976409856630, 10⟩, ⟨28361841532232313, 17⟩, ⟨-25969402563665948, 24⟩, ⟨-21874444208474171, 25⟩),
  (⟨24668342661404479, 10⟩, ⟨74558276593106443, 17⟩, ⟨-60814444296182689, 23⟩, ⟨-51224981613070279, 24⟩),
  (⟨24529427155778646, 10⟩, ⟨11743727306562801, 17⟩, ⟨-55597366158581100, 24⟩, ⟨-46830553039966190, 25⟩),
  (⟨24639562013847851, 10⟩, ⟨47017592980022160, 17⟩, ⟨-49366143232292855, 23⟩, ⟨-41581894049159742, 24⟩),
  (⟨24731090724775665, 10⟩, ⟨31942184485394631, 17⟩, ⟨-85770144175674611, 23⟩, ⟨-72245567795562383, 24⟩),
  (⟨24711075972233615, 10⟩, ⟨32413312742022982, 17⟩, ⟨-77809501564903215, 23⟩, ⟨-65540190872623286, 24⟩),
  (⟨24518186234018207, 10⟩, ⟨49293608531195177, 17⟩, ⟨-10902694559054482, 24⟩, ⟨-91835144558830343, 26⟩),
  (⟨24754293157394622, 10⟩, ⟨38613656161582055, 17⟩, ⟨-94998937742152660, 23⟩, ⟨-80019128603768828, 24⟩),
  (⟨24523910281664394, 10⟩, ⟨68850119786514208, 17⟩, ⟨-33677281973889503, 24⟩, ⟨-28366914634439213, 25⟩),
  (⟨24851146966113723, 10⟩, ⟨29058795847713770, 17⟩, ⟨-13352116097188633, 22⟩, ⟨-11246701494845356, 23⟩),
  (⟨24747066200938723, 10⟩, ⟨47882649703469360, 17⟩, ⟨-92124859030480728, 23⟩, ⟨-77598246017998772, 24⟩),
  (⟨24685643810887900, 10⟩, ⟨63003982903487599, 17⟩, ⟨-67695338462713062, 23⟩, ⟨-57020869107254375, 24⟩),
  (⟨24533269251252986, 10⟩, ⟨21155781104129445, 17⟩, ⟨-70882648100659338, 24⟩, ⟨-59705591125000542, 25⟩),
  (⟨24744038615593896, 10⟩, ⟨21227263985744538, 17⟩, ⟨-90919608001980086, 23⟩, ⟨-76583043750040954, 24⟩),
  (⟨24581163741346705, 10⟩, ⟨88474565532410021, 17⟩, ⟨-26140481695697068, 23⟩, ⟨-22018546904701949, 24⟩),
  (⟨24781992188280914, 10⟩, ⟨39317843160673427, 17⟩, ⟨-10601596953951422, 22⟩, ⟨-89298951148918350, 24⟩),
  (⟨24636323640935188, 10⟩, ⟨50010536569712105, 18⟩, ⟨-48076442649153072, 23⟩, ⟨-40495558567149120, 24⟩),
  (⟨24728415100483075, 10⟩, ⟨13012924491283551, 18⟩, ⟨-84704723505433159, 23⟩, ⟨-71348146880598452, 24⟩),
  (⟨24601186097781081, 10⟩, ⟨26191432430921235, 17⟩, ⟨-34101690167471558, 23⟩, ⟨-28724400461437743, 24⟩),
  (⟨24855766504121190, 10⟩, ⟨96072358236793753, 17⟩, ⟨-13536119995405246, 22⟩, ⟨-11401690928884644, 23⟩),
  (⟨24588768539118869, 10⟩, ⟨50136734232054503, 17⟩, ⟨-29163686710030850, 23⟩, ⟨-24565040966500203, 24⟩),
  (⟨24569791249894518, 10⟩, ⟨99695006820062093, 17⟩, ⟨-21617636821826184, 23⟩, ⟨-18208882141928678, 24⟩),
  (⟨24805335352243935, 10⟩, ⟨10442348157981862, 17⟩, ⟨-11529932370236631, 22⟩, ⟨-97118469222350242, 24⟩),
  (⟨24577749585779952, 10⟩, ⟨82970284706143294, 17⟩, ⟨-24782317612699775, 23⟩, ⟨-20874543518923485, 24⟩),
  (⟨24778645037147752, 10⟩, ⟨89232009224541509, 17⟩, ⟨-10468665999030809, 22⟩, ⟨-88179252399645443, 24⟩),
  (⟨24553822987489426, 10⟩, ⟨26743407263192509, 17⟩, ⟨-15263523605777646, 23⟩, ⟨-12856710689465300, 24⟩),
  (⟨24732293812819486, 10⟩, ⟨27251896546453203, 17⟩, ⟨-86248473482563626, 23⟩, ⟨-72648472240944618, 24⟩),
  (⟨24601918887482155, 10⟩, ⟨10573098757045096, 17⟩, ⟨-34392528508432190, 23⟩, ⟨-28969378259730630, 24⟩),
  (⟨24802095391955972, 10⟩, ⟨54111151674307079, 17⟩, ⟨-11401239980319407, 22⟩, ⟨-96034472585770654, 24⟩),
  (⟨24563459724864117, 10⟩, ⟨48481174894735080, 17⟩, ⟨-19097301080297255, 23⟩, ⟨-16085962932311120, 24⟩),
  (⟨24797767758959299, 10⟩, ⟨37563034447503063, 17⟩, ⟨-11229047023877075, 22⟩, ⟨-94584063701871285, 24⟩),
  (⟨24790085396849853, 10⟩, ⟨70666771281819496, 17⟩, ⟨-10923620662873686, 22⟩, ⟨-92011408486878628, 24⟩),
  (⟨24554972290420989, 10⟩, ⟨17911753858945301, 17⟩, ⟨-15720295720579514, 23⟩, ⟨-13241457166274883, 24⟩),
  (⟨24644832450908977, 10⟩, ⟨74866108584514535, 17⟩, ⟨-51463512848979052, 23⟩, ⟨-43348542109402007, 24⟩),
  (⟨24842013018890414, 10⟩, ⟨71260351396809540, 17⟩, ⟨-12988990621386480, 22⟩, ⟨-10940835083724168, 23⟩),
  (⟨24824750541293686, 10⟩, ⟨17807502356410809, 17⟩, ⟨-12302180779928335, 22⟩, ⟨-10362324141010884, 23⟩),
  (⟨24573195045627574, 10⟩, ⟨73368020427723979, 17⟩, ⟨-22970414332027461, 23⟩, ⟨-19348348331065343, 24⟩),
  (⟨24733892192055746, 10⟩, ⟨78830398899023224, 17⟩, ⟨-86886263816467967, 23⟩, ⟨-73185693266399170, 24⟩),
  (⟨24872967077104291, 10⟩, ⟨87345704075309716, 17⟩, ⟨-14220220332158302, 22⟩, ⟨-11977919612336910, 23⟩),
  (⟨24726119352541096, 10⟩, ⟨19520876323471559, 17⟩, ⟨-83792338109829390, 23⟩, ⟨-70579630031439807, 24⟩),
  (⟨24560054118109616, 10⟩, ⟨81035568724062856, 17⟩, ⟨-17744050943705328, 23⟩, ⟨-14946098642386867, 24⟩),
  (⟨24622995015662895, 10⟩, ⟨17956470924194179, 17⟩, ⟨-42775634734886433, 23⟩, ⟨-36030603060521724, 24⟩),
  (⟨24667286826352370, 10⟩, ⟨35062655660565545, 17⟩, ⟨-60392925898727682, 23⟩, ⟨-50869929907688519, 24⟩),
  (⟨24531633550814362, 10⟩, ⟨56387109521069811, 17⟩, ⟨-64390831243956083, 24⟩, ⟨-54237429687884243, 25⟩),
  (⟨24852731870869990, 10⟩, ⟨34066187026135752, 17⟩, ⟨-13415173965247386, 22⟩, ⟨-11299816148267779, 23⟩),
  (⟨24562493084350079, 10⟩, ⟨95563223958422749, 17⟩, ⟨-18714702427730218, 23⟩, ⟨-15763693952141186, 24⟩),
  (⟨24601531630231766, 10⟩, ⟨52551447750836888, 17⟩, ⟨-34240170577600403, 23⟩, ⟨-28841044731474523, 24⟩),
  (⟨24689536233419487, 10⟩, ⟨93294174639686811, 18⟩, ⟨-69241374519562578, 23⟩, ⟨-58323120069206050, 24⟩),
  (⟨24617594586801692, 10⟩, ⟨46745791825593419, 17⟩, ⟨-40628814932246780, 23⟩, ⟨-34222302315698600, 24⟩),
  (⟨24654780371032557, 10⟩, ⟨24381559164280131, 17⟩, ⟨-55418187483521654, 23⟩, ⟨-46679627968766440, 24⟩),
  (⟨24733595263236468, 10⟩, ⟨32547205441162597, 17⟩, ⟨-86766322575473852, 23⟩, ⟨-73084664835807095, 24⟩),
  (⟨24658565132339471, 10⟩, ⟨24074070385171065, 17⟩, ⟨-56923525019321399, 23⟩, ⟨-47947597913821853, 24⟩),
  (⟨24847158572159843, 10⟩, ⟨45946168369789853, 17⟩, ⟨-13193549009922221, 22⟩, ⟨-11113137894558213, 23⟩),
  (⟨24614810838197377, 10⟩, ⟨64923414527867340, 17⟩, ⟨-39522330638500119, 23⟩, ⟨-33290292852185650, 24⟩),
  (⟨24681611324809655, 10⟩, ⟨56139853539051809, 17⟩, ⟨-66091185710956193, 23⟩, ⟨-55669665521259275, 24⟩)]

/-- `PR00_DATA`. -/
def PR00_DATA : List (Dec × Dec × Dec × Dec) :=
  Pr_0 ++ Pr_1 ++ Pr_2 ++ Pr_3 ++ Pr_4 ++ Pr_5 ++ Pr_6 ++ Pr_7 ++ Pr_8 ++ Pr_9

end Verif.TestData
