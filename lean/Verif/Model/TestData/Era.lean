import Verif.Model.Epv.Table

/-!
# `ERA00_DATA` of `crates/tofas/src/test_data.rs` (lines 16010-17011)

The two parts of a UT1 date and the rotation angle. `⟨m, e⟩` is `m * 10^-e`; digits as in the source. Written by tools/gen_testdata.py.
-/

namespace Verif.TestData
open Epv

/-- Entries 0 to 99. -/
def Era_0 : List (Dec × Dec × Dec) := [
  (⟨24515450000000000, 10⟩, ⟨14164831728719926, 12⟩, ⟨24594336487895134, 16⟩),
  (⟨24515450000000000, 10⟩, ⟨18770635378088831, 12⟩, ⟨50573640270403359, 16⟩),
  (⟨24515450000000000, 10⟩, ⟨31654409467870482, 12⟩, ⟨53554380103797357, 16⟩),
  (⟨24515450000000000, 10⟩, ⟨23478711876706839, 12⟩, ⟨48457874096015203, 16⟩),
  (⟨24515450000000000, 10⟩, ⟨21622086089527122, 12⟩, ⟨39176693738639301, 17⟩),
  (⟨24515450000000000, 10⟩, ⟨15470596277895796, 12⟩, ⟨45924928264265006, 16⟩),
  (⟨24515450000000000, 10⟩, ⟨19791031606213539, 12⟩, ⟨62504219910589285, 16⟩),
  (⟨24515450000000000, 10⟩, ⟨35531176504853352, 13⟩, ⟨39236958174851395, 16⟩),
  (⟨24515450000000000, 10⟩, ⟨62632697498775133, 13⟩, ⟨12344051161809801, 16⟩),
  (⟨24515450000000000, 10⟩, ⟨22608022476689712, 12⟩, ⟨43859598594033145, 16⟩),
  (⟨24515450000000000, 10⟩, ⟨22254517774094511, 12⟩, ⟨14169538611860588, 16⟩),
  (⟨24515450000000000, 10⟩, ⟨14006466282993062, 12⟩, ⟨37222248984587551, 16⟩),
  (⟨24515450000000000, 10⟩, ⟨35430913076653851, 12⟩, ⟨43687601844805641, 16⟩),
  (⟨24515450000000000, 10⟩, ⟨26295185747703184, 12⟩, ⟨60072135317641937, 16⟩),
  (⟨24515450000000000, 10⟩, ⟨41828924798335316, 14⟩, ⟨13414760358038045, 16⟩),
  (⟨24515450000000000, 10⟩, ⟨17216140411880780, 12⟩, ⟨33943929226046521, 17⟩),
  (⟨24515450000000000, 10⟩, ⟨18304783971635876, 12⟩, ⟨42605305765686055, 16⟩),
  (⟨24515450000000000, 10⟩, ⟨10537886819508325, 12⟩, ⟨32460747150406206, 16⟩),
  (⟨24515450000000000, 10⟩, ⟨29212214033610977, 12⟩, ⟨60987010748205535, 16⟩),
  (⟨24515450000000000, 10⟩, ⟨19147070902688287, 12⟩, ⟨17029866695572835, 16⟩),
  (⟨24515450000000000, 10⟩, ⟨20673148387189558, 12⟩, ⟨33089538548867736, 16⟩),
  (⟨24515450000000000, 10⟩, ⟨33971117832127347, 12⟩, ⟨56763580564039060, 16⟩),
  (⟨24515450000000000, 10⟩, ⟨11785147283763876, 12⟩, ⟨12054771530696726, 16⟩),
  (⟨24515450000000000, 10⟩, ⟨10747071482347108, 12⟩, ⟨17215923778238249, 16⟩),
  (⟨24515450000000000, 10⟩, ⟨27428446549960947, 12⟩, ⟨20076970431206576, 16⟩),
  (⟨24515450000000000, 10⟩, ⟨33425402077694998, 12⟩, ⟨43580105330939602, 16⟩),
  (⟨24515450000000000, 10⟩, ⟨26530052417293522, 12⟩, ⟨29265071801257037, 16⟩),
  (⟨24515450000000000, 10⟩, ⟨35239729432843778, 12⟩, ⟨62093020297867056, 16⟩),
  (⟨24515450000000000, 10⟩, ⟨32393471212457011, 13⟩, ⟨62511514452241599, 16⟩),
  (⟨24515450000000000, 10⟩, ⟨13048524285100724, 12⟩, ⟨17434323305415234, 17⟩),
  (⟨24515450000000000, 10⟩, ⟨34155020632985857, 13⟩, ⟨39717447144531235, 16⟩),
  (⟨24515450000000000, 10⟩, ⟨32667741195401482, 12⟩, ⟨60217019838878656, 16⟩),
  (⟨24515450000000000, 10⟩, ⟨34853428893283308, 12⟩, ⟨39589303348590192, 16⟩),
  (⟨24515450000000000, 10⟩, ⟨12912356114405944, 12⟩, ⟨30584915769685210, 16⟩),
  (⟨24515450000000000, 10⟩, ⟨34838331611129921, 12⟩, ⟨30879823793469541, 16⟩),
  (⟨24515450000000000, 10⟩, ⟨13029490145298458, 12⟩, ⟨59155931453039159, 16⟩),
  (⟨24515450000000000, 10⟩, ⟨20956727351999420, 12⟩, ⟨55416880108248421, 16⟩),
  (⟨24515450000000000, 10⟩, ⟨22111369040346162, 12⟩, ⟨43031472421521428, 16⟩),
  (⟨24515450000000000, 10⟩, ⟨33375728066827018, 12⟩, ⟨55517594025252208, 16⟩),
  (⟨24515450000000000, 10⟩, ⟨28795896230685583, 12⟩, ⟨32234981042919344, 16⟩),
  (⟨24515450000000000, 10⟩, ⟨33895947622966218, 12⟩, ⟨33138109193486542, 16⟩),
  (⟨24515450000000000, 10⟩, ⟨16802067283785156, 12⟩, ⟨53233722238673948, 16⟩),
  (⟨24515450000000000, 10⟩, ⟨26534087349810401, 12⟩, ⟨32154042906523514, 16⟩),
  (⟨24515450000000000, 10⟩, ⟨36622280560174777, 13⟩, ⟨21114571718637620, 17⟩),
  (⟨24515450000000000, 10⟩, ⟨19499240613549602, 12⟩, ⟨25442127598604856, 16⟩),
  (⟨24515450000000000, 10⟩, ⟨19243320102322919, 12⟩, ⟨49244501685233288, 16⟩),
  (⟨24515450000000000, 10⟩, ⟨18493893564357888, 12⟩, ⟨19190338235149227, 16⟩),
  (⟨24515450000000000, 10⟩, ⟨15069323856071174, 12⟩, ⟨22612410689650488, 16⟩),
  (⟨24515450000000000, 10⟩, ⟨35517421980007282, 12⟩, ⟨27712506406985113, 16⟩),
  (⟨24515450000000000, 10⟩, ⟨28581374468709080, 12⟩, ⟨25381143545478366, 16⟩),
  (⟨24515450000000000, 10⟩, ⟨26649223492165202, 12⟩, ⟨60514045304080142, 16⟩),
  (⟨24515450000000000, 10⟩, ⟨11458561076606858, 12⟩, ⟨44706049891816235, 16⟩),
  (⟨24515450000000000, 10⟩, ⟨15554207306806804, 12⟩, ⟨35868073289489004, 16⟩),
  (⟨24515450000000000, 10⟩, ⟨98697141324829336, 13⟩, ⟨32333941992354767, 16⟩),
  (⟨24515450000000000, 10⟩, ⟨20838915189683885, 12⟩, ⟨46952810176915847, 16⟩),
  (⟨24515450000000000, 10⟩, ⟨43453682639171921, 13⟩, ⟨27722784962326585, 17⟩),
  (⟨24515450000000000, 10⟩, ⟨90728146199530256, 13⟩, ⟨27227376912690175, 16⟩),
  (⟨24515450000000000, 10⟩, ⟨50886940425522107, 13⟩, ⟨25446082951937612, 16⟩),
  (⟨24515450000000000, 10⟩, ⟨28448429570241908, 12⟩, ⟨59738547896713357, 17⟩),
  (⟨24515450000000000, 10⟩, ⟨34587086786026819, 12⟩, ⟨35109275971136853, 16⟩),
  (⟨24515450000000000, 10⟩, ⟨34758797994595741, 12⟩, ⟨46502045654116273, 16⟩),
  (⟨24515450000000000, 10⟩, ⟨19075825968880821, 12⟩, ⟨52216393312543872, 16⟩),
  (⟨24515450000000000, 10⟩, ⟨71877272697459339, 13⟩, ⟨11622155761063269, 16⟩),
  (⟨24515450000000000, 10⟩, ⟨21802117121471074, 12⟩, ⟨36836725322967538, 16⟩),
  (⟨24515450000000000, 10⟩, ⟨21168157430521613, 12⟩, ⟨55978239335689324, 16⟩),
  (⟨24515450000000000, 10⟩, ⟨58423425263498584, 13⟩, ⟨73399279787643223, 17⟩),
  (⟨24515450000000000, 10⟩, ⟨28191012805456347, 12⟩, ⟨61170163026194544, 16⟩),
  (⟨24515450000000000, 10⟩, ⟨36191014571325548, 12⟩, ⟨55155018068377828, 16⟩),
  (⟨24515450000000000, 10⟩, ⟨47285366587752014, 13⟩, ⟨16434301759981622, 16⟩),
  (⟨24515450000000000, 10⟩, ⟨20186786158228299, 13⟩, ⟨61853903910593999, 16⟩),
  (⟨24515450000000000, 10⟩, ⟨32952740020452657, 12⟩, ⟨46337352227731046, 16⟩),
  (⟨24515450000000000, 10⟩, ⟨13241191854210580, 12⟩, ⟨13999204705978983, 16⟩),
  (⟨24515450000000000, 10⟩, ⟨31749734085039079, 12⟩, ⟨27516737098619046, 16⟩),
  (⟨24515450000000000, 10⟩, ⟨11386770655825203, 12⟩, ⟨45524783445057437, 16⟩),
  (⟨24515450000000000, 10⟩, ⟨76743785465963938, 13⟩, ⟨10594007543663082, 16⟩),
  (⟨24515450000000000, 10⟩, ⟨30336585695808863, 12⟩, ⟨26428255495343649, 16⟩),
  (⟨24515450000000000, 10⟩, ⟨13364593236234870, 12⟩, ⟨60446508416029374, 16⟩),
  (⟨24515450000000000, 10⟩, ⟨19934471607142208, 12⟩, ⟨51993247082870298, 16⟩),
  (⟨24515450000000000, 10⟩, ⟨28394762787195737, 12⟩, ⟨17678637081880524, 16⟩),
  (⟨24515450000000000, 10⟩, ⟨74957863318961108, 13⟩, ⟨54941601001742413, 17⟩),
  (⟨24515450000000000, 10⟩, ⟨21839922040047986, 12⟩, ⟨31082667992359987, 16⟩),
  (⟨24515450000000000, 10⟩, ⟨30238458510058033, 12⟩, ⟨15569243814334754, 17⟩),
  (⟨24515450000000000, 10⟩, ⟨15798526920700238, 12⟩, ⟨35146452129165198, 16⟩),
  (⟨24515450000000000, 10⟩, ⟨35176646127901324, 12⟩, ⟨46007112995207322, 16⟩),
  (⟨24515450000000000, 10⟩, ⟨27562969124383118, 12⟩, ⟨13220251493718322, 16⟩),
  (⟨24515450000000000, 10⟩, ⟨54898072807741491, 13⟩, ⟨38729416742102529, 16⟩),
  (⟨24515450000000000, 10⟩, ⟨45676920136546933, 13⟩, ⟨61358605103201072, 16⟩),
  (⟨24515450000000000, 10⟩, ⟨93606785309459883, 13⟩, ⟨53636662473692098, 17⟩),
  (⟨24515450000000000, 10⟩, ⟨34428531544397192, 12⟩, ⟨35779311159784797, 16⟩),
  (⟨24515450000000000, 10⟩, ⟨11982301462959711, 12⟩, ⟨55656952055509876, 16⟩),
  (⟨24515450000000000, 10⟩, ⟨10152682213073917, 12⟩, ⟨16173210666941671, 16⟩),
  (⟨24515450000000000, 10⟩, ⟨28699309237925805, 12⟩, ⟨41569923337284180, 16⟩),
  (⟨24515450000000000, 10⟩, ⟨37461458707345232, 13⟩, ⟨11383296731851047, 16⟩),
  (⟨24515450000000000, 10⟩, ⟨32729191954737118, 12⟩, ⟨36278081085748823, 16⟩),
  (⟨24515450000000000, 10⟩, ⟨35115496938918841, 12⟩, ⟨26114299470340043, 16⟩),
  (⟨24515450000000000, 10⟩, ⟨27857340021310491, 12⟩, ⟨24330749974048516, 16⟩),
  (⟨24515450000000000, 10⟩, ⟨29068098748839511, 12⟩, ⟨28952484844297146, 16⟩),
  (⟨24515450000000000, 10⟩, ⟨29692465650090919, 12⟩, ⟨33746579782645796, 16⟩),
  (⟨24515450000000000, 10⟩, ⟨20663184356290188, 14⟩, ⟨61362841754379573, 16⟩),
  (⟨24515450000000000, 10⟩, ⟨58977992656562465, 13⟩, ⟨45577472851911622, 16⟩)]

/-- Entries 100 to 199. -/
def Era_1 : List (Dec × Dec × Dec) := [
  (⟨24515450000000000, 10⟩, ⟨85237864334946917, 13⟩, ⟨56675261094362099, 16⟩),
  (⟨24515450000000000, 10⟩, ⟨33954522433571663, 12⟩, ⟨16498815733342980, 16⟩),
  (⟨24515450000000000, 10⟩, ⟨32304553689464599, 12⟩, ⟨48791360468234544, 16⟩),
  (⟨24515450000000000, 10⟩, ⟨11402784049148258, 12⟩, ⟨49120963426940989, 16⟩),
  (⟨24515450000000000, 10⟩, ⟨81829278524640913, 13⟩, ⟨69257717947334640, 17⟩),
  (⟨24515450000000000, 10⟩, ⟨22551014980700318, 12⟩, ⟨33582079858378364, 16⟩),
  (⟨24515450000000000, 10⟩, ⟨40343739572355798, 13⟩, ⟨12464054208305555, 16⟩),
  (⟨24515450000000000, 10⟩, ⟨73077664331599335, 13⟩, ⟨34732218086374260, 16⟩),
  (⟨24515450000000000, 10⟩, ⟨61778407608041553, 13⟩, ⟨33526077697253953, 16⟩),
  (⟨24515450000000000, 10⟩, ⟨23442045920874567, 12⟩, ⟨30729152516563829, 18⟩),
  (⟨24515450000000000, 10⟩, ⟨43221159340490158, 13⟩, ⟨45749870825799377, 16⟩),
  (⟨24515450000000000, 10⟩, ⟨25654587408112839, 12⟩, ⟨37944179501223161, 16⟩),
  (⟨24515450000000000, 10⟩, ⟨21526144956170880, 12⟩, ⟨53944256710623719, 16⟩),
  (⟨24515450000000000, 10⟩, ⟨30429317533303180, 12⟩, ⟨25531005548100723, 16⟩),
  (⟨24515450000000000, 10⟩, ⟨14495138839594136, 12⟩, ⟨37878851103574220, 16⟩),
  (⟨24515450000000000, 10⟩, ⟨18795487044275018, 12⟩, ⟨45528580120099775, 16⟩),
  (⟨24515450000000000, 10⟩, ⟨25459983030433043, 12⟩, ⟨29325668486438516, 16⟩),
  (⟨24515450000000000, 10⟩, ⟨12787504199615556, 12⟩, ⟨18412133316757604, 16⟩),
  (⟨24515450000000000, 10⟩, ⟨32141905135114362, 13⟩, ⟨48344075465509562, 16⟩),
  (⟨24515450000000000, 10⟩, ⟨33201975189937810, 12⟩, ⟨41155515113548233, 16⟩),
  (⟨24515450000000000, 10⟩, ⟨12281722888692159, 13⟩, ⟨19719831382196453, 16⟩),
  (⟨24515450000000000, 10⟩, ⟨28885133263292668, 12⟩, ⟨62478893581196857, 16⟩),
  (⟨24515450000000000, 10⟩, ⟨24714001998049775, 12⟩, ⟨27856148349829084, 16⟩),
  (⟨24515450000000000, 10⟩, ⟨26597495444996446, 12⟩, ⟨58711410027656541, 17⟩),
  (⟨24515450000000000, 10⟩, ⟨28404694166956401, 13⟩, ⟨15799051718447998, 17⟩),
  (⟨24515450000000000, 10⟩, ⟨27096009216926715, 12⟩, ⟨61075764620828323, 16⟩),
  (⟨24515450000000000, 10⟩, ⟨90640803719278324, 14⟩, ⟨42013724099979086, 16⟩),
  (⟨24515450000000000, 10⟩, ⟨12235827763289693, 12⟩, ⟨66737203702449932, 17⟩),
  (⟨24515450000000000, 10⟩, ⟨36405904141703600, 13⟩, ⟨21156945386741270, 16⟩),
  (⟨24515450000000000, 10⟩, ⟨23782215024097928, 12⟩, ⟨66170073335440804, 17⟩),
  (⟨24515450000000000, 10⟩, ⟨63868703913194722, 13⟩, ⟨85136172170087576, 17⟩),
  (⟨24515450000000000, 10⟩, ⟨12706651858661701, 13⟩, ⟨57999167522490715, 16⟩),
  (⟨24515450000000000, 10⟩, ⟨28254380895358059, 12⟩, ⟨32366773194315641, 16⟩),
  (⟨24515450000000000, 10⟩, ⟨24849547588440935, 12⟩, ⟨22621546438234716, 16⟩),
  (⟨24515450000000000, 10⟩, ⟨10555556529387290, 12⟩, ⟨14747582018246277, 16⟩),
  (⟨24515450000000000, 10⟩, ⟨13253592649634460, 12⟩, ⟨41315130988659874, 16⟩),
  (⟨24515450000000000, 10⟩, ⟨22110654587762168, 12⟩, ⟨60850044292562941, 16⟩),
  (⟨24515450000000000, 10⟩, ⟨29013253701455091, 12⟩, ⟨29253901280285959, 16⟩),
  (⟨24515450000000000, 10⟩, ⟨33707437407382153, 12⟩, ⟨31484305849919068, 16⟩),
  (⟨24515450000000000, 10⟩, ⟨27150871870576368, 12⟩, ⟨61883611116385211, 16⟩),
  (⟨24515450000000000, 10⟩, ⟨26950978200387512, 12⟩, ⟨34178442081900968, 16⟩),
  (⟨24515450000000000, 10⟩, ⟨19939503466370461, 12⟩, ⟨54860610891853057, 16⟩),
  (⟨24515450000000000, 10⟩, ⟨28867713522316040, 12⟩, ⟨33109215085183337, 16⟩),
  (⟨24515450000000000, 10⟩, ⟨16056622897571146, 12⟩, ⟨22743137126312902, 16⟩),
  (⟨24515450000000000, 10⟩, ⟨46365671969887753, 13⟩, ⟨25323223374452652, 17⟩),
  (⟨24515450000000000, 10⟩, ⟨43204335744154396, 13⟩, ⟨25865480615460257, 17⟩),
  (⟨24515450000000000, 10⟩, ⟨10190857333767231, 12⟩, ⟨33743321153868706, 16⟩),
  (⟨24515450000000000, 10⟩, ⟨26033865277044959, 12⟩, ⟨57815406448489739, 16⟩),
  (⟨24515450000000000, 10⟩, ⟨33775116634567450, 12⟩, ⟨22971857682648036, 16⟩),
  (⟨24515450000000000, 10⟩, ⟨68268653209709382, 13⟩, ⟨21051902671714657, 16⟩),
  (⟨24515450000000000, 10⟩, ⟨29659075232544532, 12⟩, ⟨34720422841685661, 17⟩),
  (⟨24515450000000000, 10⟩, ⟨12138490113128893, 12⟩, ⟨31546190774006249, 16⟩),
  (⟨24515450000000000, 10⟩, ⟨34258711083677175, 12⟩, ⟨17847276211737366, 16⟩),
  (⟨24515450000000000, 10⟩, ⟨12369576367464724, 12⟩, ⟨13885729902486830, 16⟩),
  (⟨24515450000000000, 10⟩, ⟨36115827761424473, 12⟩, ⟨30483635755576017, 16⟩),
  (⟨24515450000000000, 10⟩, ⟨12845245593097537, 12⟩, ⟨12096184769229410, 16⟩),
  (⟨24515450000000000, 10⟩, ⟨30253593924377015, 12⟩, ⟨12668878126131915, 16⟩),
  (⟨24515450000000000, 10⟩, ⟨10031941367375142, 12⟩, ⟨11686298546717708, 16⟩),
  (⟨24515450000000000, 10⟩, ⟨29531043479796495, 12⟩, ⟨42284559335658756, 16⟩),
  (⟨24515450000000000, 10⟩, ⟨10233959399326974, 12⟩, ⟨47570784125506478, 16⟩),
  (⟨24515450000000000, 10⟩, ⟨28305774431719929, 12⟩, ⟨31023474049398914, 17⟩),
  (⟨24515450000000000, 10⟩, ⟨19524344535213608, 12⟩, ⟨36290140007453005, 16⟩),
  (⟨24515450000000000, 10⟩, ⟨10213665018907388, 12⟩, ⟨25583241091426956, 16⟩),
  (⟨24515450000000000, 10⟩, ⟨49859257241896711, 14⟩, ⟨46287118803923732, 16⟩),
  (⟨24515450000000000, 10⟩, ⟨20326396941023209, 12⟩, ⟨51889683127788544, 16⟩),
  (⟨24515450000000000, 10⟩, ⟨28351433181434499, 12⟩, ⟨52347112799609903, 16⟩),
  (⟨24515450000000000, 10⟩, ⟨35408903165578842, 12⟩, ⟨39278686208591154, 16⟩),
  (⟨24515450000000000, 10⟩, ⟨33024123797921980, 12⟩, ⟨19898514308621245, 16⟩),
  (⟨24515450000000000, 10⟩, ⟨28495152563202195, 12⟩, ⟨59438215394338698, 16⟩),
  (⟨24515450000000000, 10⟩, ⟨28173556995429724, 12⟩, ⟨29527994617724147, 16⟩),
  (⟨24515450000000000, 10⟩, ⟨32787417706865643, 12⟩, ⟨60478604096038140, 16⟩),
  (⟨24515450000000000, 10⟩, ⟨38074704166158940, 13⟩, ⟨42324274371413608, 16⟩),
  (⟨24515450000000000, 10⟩, ⟨24556448184229455, 12⟩, ⟨28788162853183223, 16⟩),
  (⟨24515450000000000, 10⟩, ⟨88532887317670447, 13⟩, ⟨19253463250841278, 16⟩),
  (⟨24515450000000000, 10⟩, ⟨13455988217161443, 12⟩, ⟨38153967630535846, 16⟩),
  (⟨24515450000000000, 10⟩, ⟨32750948509743983, 12⟩, ⟨24724582707681222, 16⟩),
  (⟨24515450000000000, 10⟩, ⟨27431709316879525, 12⟩, ⟨37148369875918945, 16⟩),
  (⟨24515450000000000, 10⟩, ⟨30827651122493116, 12⟩, ⟨52181238765726974, 16⟩),
  (⟨24515450000000000, 10⟩, ⟨18394166497567036, 12⟩, ⟨19184008416238996, 16⟩),
  (⟨24515450000000000, 10⟩, ⟨11414121429743407, 12⟩, ⟨94376349079104216, 17⟩),
  (⟨24515450000000000, 10⟩, ⟨22212927933656050, 12⟩, ⟨32786264881210485, 16⟩),
  (⟨24515450000000000, 10⟩, ⟨11011755500648365, 12⟩, ⟨42893628244614419, 16⟩),
  (⟨24515450000000000, 10⟩, ⟨33299546735124350, 12⟩, ⟨31019337643647020, 16⟩),
  (⟨24515450000000000, 10⟩, ⟨43663416807047379, 13⟩, ⟨47098908159937736, 17⟩),
  (⟨24515450000000000, 10⟩, ⟨35296704047439234, 12⟩, ⟨74670307326023533, 17⟩),
  (⟨24515450000000000, 10⟩, ⟨23068585400402157, 12⟩, ⟨32792293635416740, 16⟩),
  (⟨24515450000000000, 10⟩, ⟨72950168521661153, 13⟩, ⟨48273302471526733, 16⟩),
  (⟨24515450000000000, 10⟩, ⟨79587544438462983, 13⟩, ⟨20299327761597041, 16⟩),
  (⟨24515450000000000, 10⟩, ⟨18223011232820489, 12⟩, ⟨42817853751586341, 16⟩),
  (⟨24515450000000000, 10⟩, ⟨66333520743952768, 13⟩, ⟨18347026134117428, 16⟩),
  (⟨24515450000000000, 10⟩, ⟨91245346549203769, 13⟩, ⟨18533628407525242, 16⟩),
  (⟨24515450000000000, 10⟩, ⟨13541112559724737, 12⟩, ⟨60609883568022624, 16⟩),
  (⟨24515450000000000, 10⟩, ⟨35409192710606425, 12⟩, ⟨57521144894937848, 16⟩),
  (⟨24515450000000000, 10⟩, ⟨90362961675138777, 13⟩, ⟨51201932736545430, 16⟩),
  (⟨24515450000000000, 10⟩, ⟨64367281138973804, 13⟩, ⟨81506781066773470, 17⟩),
  (⟨24515450000000000, 10⟩, ⟨32664818894314176, 12⟩, ⟨17644339525076447, 17⟩),
  (⟨24515450000000000, 10⟩, ⟨72997121054896643, 13⟩, ⟨29933189980866715, 16⟩),
  (⟨24515450000000000, 10⟩, ⟨70090265497680120, 13⟩, ⟨62517908454542592, 16⟩),
  (⟨24515450000000000, 10⟩, ⟨18046219714797895, 12⟩, ⟨25505168320052150, 16⟩),
  (⟨24515450000000000, 10⟩, ⟨19613823946081673, 12⟩, ⟨18972969099353563, 16⟩)]

/-- Entries 200 to 299. -/
def Era_2 : List (Dec × Dec × Dec) := [
  (⟨24515450000000000, 10⟩, ⟨20411270176400208, 13⟩, ⟨31057582326026605, 16⟩),
  (⟨24515450000000000, 10⟩, ⟨17106303484345157, 12⟩, ⟨57578045601549874, 16⟩),
  (⟨24515450000000000, 10⟩, ⟨16261924941811201, 12⟩, ⟨14205709688699670, 16⟩),
  (⟨24515450000000000, 10⟩, ⟨12674130055396424, 13⟩, ⟨41594764398627859, 16⟩),
  (⟨24515450000000000, 10⟩, ⟨39619915325950483, 13⟩, ⟨38816103787608682, 16⟩),
  (⟨24515450000000000, 10⟩, ⟨77419676476684990, 13⟩, ⟨59235118090332293, 16⟩),
  (⟨24515450000000000, 10⟩, ⟨20895057320559121, 12⟩, ⟨27089735454428876, 17⟩),
  (⟨24515450000000000, 10⟩, ⟨17602285678428358, 12⟩, ⟨16115308397244021, 16⟩),
  (⟨24515450000000000, 10⟩, ⟨18991650196484836, 12⟩, ⟨26692220427505120, 16⟩),
  (⟨24515450000000000, 10⟩, ⟨19280425186088873, 12⟩, ⟨62229992568797527, 16⟩),
  (⟨24515450000000000, 10⟩, ⟨34963336325185205, 13⟩, ⟨43039420809411268, 16⟩),
  (⟨24515450000000000, 10⟩, ⟨34273482204735206, 12⟩, ⟨60073429283922763, 17⟩),
  (⟨24515450000000000, 10⟩, ⟨32753081515350150, 12⟩, ⟨33448494866813832, 16⟩),
  (⟨24515450000000000, 10⟩, ⟨13154420706231440, 13⟩, ⟨51683023478692220, 16⟩),
  (⟨24515450000000000, 10⟩, ⟨31767265550459673, 12⟩, ⟨10936354101505685, 17⟩),
  (⟨24515450000000000, 10⟩, ⟨28359632564331572, 12⟩, ⟨34533291917826858, 17⟩),
  (⟨24515450000000000, 10⟩, ⟨14885130909614949, 12⟩, ⟨41635878958835875, 16⟩),
  (⟨24515450000000000, 10⟩, ⟨93984810820894036, 13⟩, ⟨62292304504751854, 16⟩),
  (⟨24515450000000000, 10⟩, ⟨67923978933239623, 13⟩, ⟨48585261708224365, 16⟩),
  (⟨24515450000000000, 10⟩, ⟨30139748482875410, 12⟩, ⟨27961777028977508, 17⟩),
  (⟨24515450000000000, 10⟩, ⟨16686618643972404, 12⟩, ⟨51851691039208703, 17⟩),
  (⟨24515450000000000, 10⟩, ⟨32723360295966708, 12⟩, ⟨45852100075354798, 16⟩),
  (⟨24515450000000000, 10⟩, ⟨27162716892291854, 12⟩, ⟨54183640220702429, 16⟩),
  (⟨24515450000000000, 10⟩, ⟨35310628632390588, 12⟩, ⟨51238955850904233, 17⟩),
  (⟨24515450000000000, 10⟩, ⟨25269260174489315, 12⟩, ⟨13930654939365326, 16⟩),
  (⟨24515450000000000, 10⟩, ⟨13332361536858441, 12⟩, ⟨40343852432537020, 16⟩),
  (⟨24515450000000000, 10⟩, ⟨34336506403201834, 12⟩, ⟨18369313224221955, 16⟩),
  (⟨24515450000000000, 10⟩, ⟨15627008003246847, 12⟩, ⟨35868767827221788, 16⟩),
  (⟨24515450000000000, 10⟩, ⟨27049648363844841, 12⟩, ⟨30427619600214868, 16⟩),
  (⟨24515450000000000, 10⟩, ⟨11480871926516073, 12⟩, ⟨52434251092871165, 17⟩),
  (⟨24515450000000000, 10⟩, ⟨34622364531354879, 13⟩, ⟨31068002065533591, 16⟩),
  (⟨24515450000000000, 10⟩, ⟨33455436492304416, 13⟩, ⟨30295996288762268, 16⟩),
  (⟨24515450000000000, 10⟩, ⟨33069944833903253, 12⟩, ⟨16536090271555111, 16⟩),
  (⟨24515450000000000, 10⟩, ⟨18337335947027084, 12⟩, ⟨20054738635636724, 16⟩),
  (⟨24515450000000000, 10⟩, ⟨27964400931158933, 12⟩, ⟨46574638588996962, 16⟩),
  (⟨24515450000000000, 10⟩, ⟨15366135513210274, 12⟩, ⟨61836553987793224, 16⟩),
  (⟨24515450000000000, 10⟩, ⟨14467782456405736, 12⟩, ⟨10780740811388583, 16⟩),
  (⟨24515450000000000, 10⟩, ⟨31427921506834176, 12⟩, ⟨46765871263883909, 16⟩),
  (⟨24515450000000000, 10⟩, ⟨21110550298885384, 12⟩, ⟨79213513407244562, 17⟩),
  (⟨24515450000000000, 10⟩, ⟨55215496665454384, 13⟩, ⟨28003419576389348, 16⟩),
  (⟨24515450000000000, 10⟩, ⟨16626718704458679, 12⟩, ⟨11680597152140848, 17⟩),
  (⟨24515450000000000, 10⟩, ⟨34702417277313274, 12⟩, ⟨12882161067501556, 16⟩),
  (⟨24515450000000000, 10⟩, ⟨52545470150162209, 13⟩, ⟨44738396567259073, 16⟩),
  (⟨24515450000000000, 10⟩, ⟨11956919531134166, 12⟩, ⟨27293222217152362, 16⟩),
  (⟨24515450000000000, 10⟩, ⟨35885362284992652, 13⟩, ⟨87979047663480259, 17⟩),
  (⟨24515450000000000, 10⟩, ⟨26790255008424327, 12⟩, ⟨23922911879586337, 16⟩),
  (⟨24515450000000000, 10⟩, ⟨24237748473155989, 12⟩, ⟨55664429031381175, 16⟩),
  (⟨24515450000000000, 10⟩, ⟨13827129343931621, 12⟩, ⟨48033734151696734, 16⟩),
  (⟨24515450000000000, 10⟩, ⟨28873520991000583, 12⟩, ⟨22011126952559721, 16⟩),
  (⟨24515450000000000, 10⟩, ⟨13617842191790322, 12⟩, ⟨56821334332826865, 16⟩),
  (⟨24515450000000000, 10⟩, ⟨55059711961287985, 13⟩, ⟨51809067967339786, 16⟩),
  (⟨24515450000000000, 10⟩, ⟨24049139283520050, 12⟩, ⟨47774876908385551, 16⟩),
  (⟨24515450000000000, 10⟩, ⟨10921356967124163, 13⟩, ⟨56851272563528710, 16⟩),
  (⟨24515450000000000, 10⟩, ⟨39880543710042562, 13⟩, ⟨47247733747780600, 16⟩),
  (⟨24515450000000000, 10⟩, ⟨13802515416279643, 12⟩, ⟨52253900906330131, 17⟩),
  (⟨24515450000000000, 10⟩, ⟨27088270553324826, 12⟩, ⟨13332942907925869, 16⟩),
  (⟨24515450000000000, 10⟩, ⟨19265027526581554, 12⟩, ⟨34595575793546303, 16⟩),
  (⟨24515450000000000, 10⟩, ⟨27178886623481707, 12⟩, ⟨47978585275856744, 17⟩),
  (⟨24515450000000000, 10⟩, ⟨18757793057373030, 12⟩, ⟨58271762816489456, 16⟩),
  (⟨24515450000000000, 10⟩, ⟨66059182927696147, 13⟩, ⟨49204367457544080, 16⟩),
  (⟨24515450000000000, 10⟩, ⟨54957551846560173, 13⟩, ⟨36479290208750967, 16⟩),
  (⟨24515450000000000, 10⟩, ⟨36922046307103358, 14⟩, ⟨65197635761013117, 18⟩),
  (⟨24515450000000000, 10⟩, ⟨16872382254086457, 12⟩, ⟨22287744319678708, 16⟩),
  (⟨24515450000000000, 10⟩, ⟨17924300379304546, 12⟩, ⟨96006857215708408, 17⟩),
  (⟨24515450000000000, 10⟩, ⟨31062634161678248, 12⟩, ⟨28705910638153540, 16⟩),
  (⟨24515450000000000, 10⟩, ⟨16092970940893785, 12⟩, ⟨50863999721469852, 16⟩),
  (⟨24515450000000000, 10⟩, ⟨76285142281446106, 13⟩, ⟨11229468224735939, 16⟩),
  (⟨24515450000000000, 10⟩, ⟨11590484913608405, 12⟩, ⟨62614362907031307, 16⟩),
  (⟨24515450000000000, 10⟩, ⟨19962621505981973, 12⟩, ⟨34222120355013885, 17⟩),
  (⟨24515450000000000, 10⟩, ⟨15550678047688090, 12⟩, ⟨20066326142958246, 17⟩),
  (⟨24515450000000000, 10⟩, ⟨27169635030848269, 12⟩, ⟨50230204642876330, 16⟩),
  (⟨24515450000000000, 10⟩, ⟨30088195562065721, 12⟩, ⟨22018765686031472, 16⟩),
  (⟨24515450000000000, 10⟩, ⟨32053902066814680, 12⟩, ⟨27563012705572092, 16⟩),
  (⟨24515450000000000, 10⟩, ⟨12382893753168542, 12⟩, ⟨36118542415380475, 16⟩),
  (⟨24515450000000000, 10⟩, ⟨31040721465166676, 12⟩, ⟨30421889192018483, 16⟩),
  (⟨24515450000000000, 10⟩, ⟨30723718625979920, 12⟩, ⟨38543953243170179, 16⟩),
  (⟨24515450000000000, 10⟩, ⟨40107595413659615, 13⟩, ⟨32628825411723739, 16⟩),
  (⟨24515450000000000, 10⟩, ⟨14905475442801002, 12⟩, ⟨39513875438906609, 17⟩),
  (⟨24515450000000000, 10⟩, ⟨79363543050565477, 13⟩, ⟨54136407087740253, 16⟩),
  (⟨24515450000000000, 10⟩, ⟨22572941389664316, 12⟩, ⟨32730038941304755, 16⟩),
  (⟨24515450000000000, 10⟩, ⟨73815349642843903, 13⟩, ⟨32878394901597758, 16⟩),
  (⟨24515450000000000, 10⟩, ⟨32110246713829707, 14⟩, ⟨47792582252278581, 16⟩),
  (⟨24515450000000000, 10⟩, ⟨34387108339580154, 12⟩, ⟨20628741979341925, 17⟩),
  (⟨24515450000000000, 10⟩, ⟨27840689851774463, 12⟩, ⟨43447054223234503, 16⟩),
  (⟨24515450000000000, 10⟩, ⟨10225207540795634, 12⟩, ⟨61656462004691264, 16⟩),
  (⟨24515450000000000, 10⟩, ⟨58231402410422388, 13⟩, ⟨54158608722454886, 16⟩),
  (⟨24515450000000000, 10⟩, ⟨97831118937854390, 13⟩, ⟨42428549092095338, 16⟩),
  (⟨24515450000000000, 10⟩, ⟨51396950735355222, 13⟩, ⟨34284150478857853, 16⟩),
  (⟨24515450000000000, 10⟩, ⟨17402285415107162, 12⟩, ⟨44526212062917807, 16⟩),
  (⟨24515450000000000, 10⟩, ⟨23631641742143140, 12⟩, ⟨75266064991627957, 17⟩),
  (⟨24515450000000000, 10⟩, ⟨22145815476021573, 12⟩, ⟨14175537835287599, 16⟩),
  (⟨24515450000000000, 10⟩, ⟨99770342921112751, 13⟩, ⟨80797182277430579, 17⟩),
  (⟨24515450000000000, 10⟩, ⟨33220039220460036, 12⟩, ⟨48286078447118754, 16⟩),
  (⟨24515450000000000, 10⟩, ⟨22245319785391242, 12⟩, ⟨14728696417236620, 18⟩),
  (⟨24515450000000000, 10⟩, ⟨23575538658607657, 12⟩, ⟨54230576838335551, 16⟩),
  (⟨24515450000000000, 10⟩, ⟨29062800208486071, 12⟩, ⟨92831767944674226, 17⟩),
  (⟨24515450000000000, 10⟩, ⟨58206633188688620, 13⟩, ⟨23766620197958375, 16⟩),
  (⟨24515450000000000, 10⟩, ⟨15015256563932749, 12⟩, ⟨90835682501320036, 17⟩),
  (⟨24515450000000000, 10⟩, ⟨14492455547515843, 12⟩, ⟨57316611985127679, 16⟩),
  (⟨24515450000000000, 10⟩, ⟨54428204695410868, 13⟩, ⟨31475335763536521, 16⟩)]

/-- Entries 300 to 399. -/
def Era_3 : List (Dec × Dec × Dec) := [
  (⟨24515450000000000, 10⟩, ⟨77143578634662663, 13⟩, ⟨16171762031337522, 16⟩),
  (⟨24515450000000000, 10⟩, ⟨29484177754218072, 12⟩, ⟨42659343790197468, 16⟩),
  (⟨24515450000000000, 10⟩, ⟨15909479961866742, 12⟩, ⟨51282282988157988, 16⟩),
  (⟨24515450000000000, 10⟩, ⟨20513343245078573, 12⟩, ⟨17842853284940148, 16⟩),
  (⟨24515450000000000, 10⟩, ⟨32609633908695665, 12⟩, ⟨43480277496966124, 16⟩),
  (⟨24515450000000000, 10⟩, ⟨36444190642076093, 12⟩, ⟨46937818857150262, 16⟩),
  (⟨24515450000000000, 10⟩, ⟨16900138877472760, 12⟩, ⟨11770684885728073, 16⟩),
  (⟨24515450000000000, 10⟩, ⟨34407837232238307, 12⟩, ⟨51426371939142186, 16⟩),
  (⟨24515450000000000, 10⟩, ⟨62788747579073188, 13⟩, ⟨53042228301824252, 16⟩),
  (⟨24515450000000000, 10⟩, ⟨19280644049332474, 12⟩, ⟨13187371909940993, 16⟩),
  (⟨24515450000000000, 10⟩, ⟨19315716392053630, 12⟩, ⟨23766006512567941, 16⟩),
  (⟨24515450000000000, 10⟩, ⟨28759409660300014, 12⟩, ⟨58218229781015438, 16⟩),
  (⟨24515450000000000, 10⟩, ⟨21428050976063747, 12⟩, ⟨31165009817059328, 16⟩),
  (⟨24515450000000000, 10⟩, ⟨19594168022959671, 12⟩, ⟨37210709750526547, 16⟩),
  (⟨24515450000000000, 10⟩, ⟨30033816839863616, 13⟩, ⟨24091957242318642, 16⟩),
  (⟨24515450000000000, 10⟩, ⟨51723883957812313, 13⟩, ⟨20638982882688097, 16⟩),
  (⟨24515450000000000, 10⟩, ⟨25307357415226270, 12⟩, ⟨26594026401125888, 16⟩),
  (⟨24515450000000000, 10⟩, ⟨18788641910236594, 12⟩, ⟨54081583214237128, 16⟩),
  (⟨24515450000000000, 10⟩, ⟨35352627735479458, 12⟩, ⟨12292302130120589, 16⟩),
  (⟨24515450000000000, 10⟩, ⟨35779425263759411, 12⟩, ⟨10157252930527463, 16⟩),
  (⟨24515450000000000, 10⟩, ⟨34569089778790258, 12⟩, ⟨32201439340790543, 16⟩),
  (⟨24515450000000000, 10⟩, ⟨16965603723711109, 12⟩, ⟨52239215843189513, 16⟩),
  (⟨24515450000000000, 10⟩, ⟨37731827737996105, 13⟩, ⟨18352921312152617, 16⟩),
  (⟨24515450000000000, 10⟩, ⟨35576445230272708, 12⟩, ⟨39326649169872354, 16⟩),
  (⟨24515450000000000, 10⟩, ⟨30283035242895236, 12⟩, ⟨45462286901630975, 16⟩),
  (⟨24515450000000000, 10⟩, ⟨81254393211670076, 13⟩, ⟨29173017798299199, 16⟩),
  (⟨24515450000000000, 10⟩, ⟨22278803507784127, 12⟩, ⟨36300391335920921, 16⟩),
  (⟨24515450000000000, 10⟩, ⟨30785894032340089, 12⟩, ⟨60260584946900124, 16⟩),
  (⟨24515450000000000, 10⟩, ⟨31381584852426829, 12⟩, ⟨17642336505176317, 16⟩),
  (⟨24515450000000000, 10⟩, ⟨35944055232021637, 12⟩, ⟨15227415925982584, 16⟩),
  (⟨24515450000000000, 10⟩, ⟨29048004573233815, 12⟩, ⟨19578620852379345, 16⟩),
  (⟨24515450000000000, 10⟩, ⟨10310898509503892, 12⟩, ⟨56980167604271870, 16⟩),
  (⟨24515450000000000, 10⟩, ⟨12613440535284009, 12⟩, ⟨47301094349345405, 16⟩),
  (⟨24515450000000000, 10⟩, ⟨11835397848153740, 12⟩, ⟨36442388783569655, 16⟩),
  (⟨24515450000000000, 10⟩, ⟨22479816085837218, 12⟩, ⟨88373852933684560, 17⟩),
  (⟨24515450000000000, 10⟩, ⟨82406866245022629, 13⟩, ⟨17047396267864201, 17⟩),
  (⟨24515450000000000, 10⟩, ⟨17697785032339278, 12⟩, ⟨10867572401566861, 17⟩),
  (⟨24515450000000000, 10⟩, ⟨19958053354321739, 12⟩, ⟨29770221817087403, 16⟩),
  (⟨24515450000000000, 10⟩, ⟨98267311269914662, 13⟩, ⟨26007724664027307, 16⟩),
  (⟨24515450000000000, 10⟩, ⟨20577754834038969, 12⟩, ⟨54783947570770479, 16⟩),
  (⟨24515450000000000, 10⟩, ⟨40995721905165801, 13⟩, ⟨36134935762939477, 16⟩),
  (⟨24515450000000000, 10⟩, ⟨34930694719240440, 12⟩, ⟨67511938894629253, 17⟩),
  (⟨24515450000000000, 10⟩, ⟨33691343113056182, 13⟩, ⟨86346439927069696, 17⟩),
  (⟨24515450000000000, 10⟩, ⟨11863222405818589, 12⟩, ⟨30205452134353905, 16⟩),
  (⟨24515450000000000, 10⟩, ⟨19997324973614130, 12⟩, ⟨53592139760836162, 16⟩),
  (⟨24515450000000000, 10⟩, ⟨79025827626261062, 13⟩, ⟨62681378157164289, 16⟩),
  (⟨24515450000000000, 10⟩, ⟨22960787174538754, 14⟩, ⟨97717259386879363, 18⟩),
  (⟨24515450000000000, 10⟩, ⟨35034960295483470, 12⟩, ⟨41373793031340043, 16⟩),
  (⟨24515450000000000, 10⟩, ⟨17736542105819117, 12⟩, ⟨55322148268075253, 16⟩),
  (⟨24515450000000000, 10⟩, ⟨10248256225165238, 12⟩, ⟨58484141657061883, 17⟩),
  (⟨24515450000000000, 10⟩, ⟨15248632664692988, 12⟩, ⟨10028598824331354, 16⟩),
  (⟨24515450000000000, 10⟩, ⟨13159503889626329, 12⟩, ⟨19552857742375593, 16⟩),
  (⟨24515450000000000, 10⟩, ⟨29869972902574875, 12⟩, ⟨33321456584454197, 16⟩),
  (⟨24515450000000000, 10⟩, ⟨34002042490409312, 13⟩, ⟨18373667985214581, 16⟩),
  (⟨24515450000000000, 10⟩, ⟨16910500504962914, 12⟩, ⟨36274835981593228, 16⟩),
  (⟨24515450000000000, 10⟩, ⟨31482148257224406, 12⟩, ⟨75093483749022738, 17⟩),
  (⟨24515450000000000, 10⟩, ⟨56234998619358685, 13⟩, ⟨42411759353965977, 16⟩),
  (⟨24515450000000000, 10⟩, ⟨21879243067149218, 12⟩, ⟨58017469341829440, 16⟩),
  (⟨24515450000000000, 10⟩, ⟨11285804919289139, 13⟩, ⟨28236026300719210, 16⟩),
  (⟨24515450000000000, 10⟩, ⟨14043698889793057, 12⟩, ⟨58242185147637926, 16⟩),
  (⟨24515450000000000, 10⟩, ⟨35936214225878502, 12⟩, ⟨23868470622593847, 16⟩),
  (⟨24515450000000000, 10⟩, ⟨31291735666081742, 12⟩, ⟨11662219529899502, 16⟩),
  (⟨24515450000000000, 10⟩, ⟨25624377728268078, 12⟩, ⟨19572882927137343, 16⟩),
  (⟨24515450000000000, 10⟩, ⟨12758522961151819, 12⟩, ⟨14605550722967848, 16⟩),
  (⟨24515450000000000, 10⟩, ⟨26145462226810698, 12⟩, ⟨51688121048035214, 16⟩),
  (⟨24515450000000000, 10⟩, ⟨28358207758220542, 12⟩, ⟨39348729405510170, 16⟩),
  (⟨24515450000000000, 10⟩, ⟨68738318403883140, 13⟩, ⟨27027520633932909, 16⟩),
  (⟨24515450000000000, 10⟩, ⟨19804888399840871, 12⟩, ⟨55889968667318826, 16⟩),
  (⟨24515450000000000, 10⟩, ⟨20981623996301587, 12⟩, ⟨53205615548956899, 16⟩),
  (⟨24515450000000000, 10⟩, ⟨17841715828989923, 12⟩, ⟨21497816665380043, 16⟩),
  (⟨24515450000000000, 10⟩, ⟨19698323785411823, 12⟩, ⟨20827614814296425, 17⟩),
  (⟨24515450000000000, 10⟩, ⟨98676986735068203, 13⟩, ⟨31015923004232206, 16⟩),
  (⟨24515450000000000, 10⟩, ⟨35999144387045067, 13⟩, ⟨34518852964285784, 16⟩),
  (⟨24515450000000000, 10⟩, ⟨11955419267116942, 12⟩, ⟨58434481951262072, 16⟩),
  (⟨24515450000000000, 10⟩, ⟨19393026979955426, 12⟩, ⟨56579926085678451, 16⟩),
  (⟨24515450000000000, 10⟩, ⟨17103885314353545, 12⟩, ⟨30887672185180577, 16⟩),
  (⟨24515450000000000, 10⟩, ⟨49958101988781500, 13⟩, ⟨16766354571514697, 16⟩),
  (⟨24515450000000000, 10⟩, ⟨44877257620734881, 13⟩, ⟨49723142597734906, 16⟩),
  (⟨24515450000000000, 10⟩, ⟨11381006214155789, 13⟩, ⟨62554395555250366, 16⟩),
  (⟨24515450000000000, 10⟩, ⟨21075212721912003, 13⟩, ⟨44187321823680747, 17⟩),
  (⟨24515450000000000, 10⟩, ⟨19992258254436048, 12⟩, ⟨48528464034976864, 16⟩),
  (⟨24515450000000000, 10⟩, ⟨32066368979921484, 12⟩, ⟨59044609209698251, 16⟩),
  (⟨24515450000000000, 10⟩, ⟨28755092485163359, 13⟩, ⟨10110227070043791, 16⟩),
  (⟨24515450000000000, 10⟩, ⟨26772335131749867, 12⟩, ⟨25874599532376266, 16⟩),
  (⟨24515450000000000, 10⟩, ⟨14380418046502566, 13⟩, ⟨47623397086707868, 16⟩),
  (⟨24515450000000000, 10⟩, ⟨15074059872044809, 12⟩, ⟨68405031042489384, 17⟩),
  (⟨24515450000000000, 10⟩, ⟨22138128481766274, 12⟩, ⟨32519938241266075, 16⟩),
  (⟨24515450000000000, 10⟩, ⟨23095015197771168, 12⟩, ⟨15119069088046899, 17⟩),
  (⟨24515450000000000, 10⟩, ⟨17154365148533394, 12⟩, ⟨68883215253663366, 17⟩),
  (⟨24515450000000000, 10⟩, ⟨16227849064023647, 12⟩, ⟨35763740008114553, 17⟩),
  (⟨24515450000000000, 10⟩, ⟨81140533880801722, 13⟩, ⟨29654981347984943, 17⟩),
  (⟨24515450000000000, 10⟩, ⟨33727541909167601, 12⟩, ⟨41508759178801213, 16⟩),
  (⟨24515450000000000, 10⟩, ⟨24598947789895672, 12⟩, ⟨46583180804226032, 17⟩),
  (⟨24515450000000000, 10⟩, ⟨19640459371781928, 13⟩, ⟨12703520781879405, 16⟩),
  (⟨24515450000000000, 10⟩, ⟨20178934493099332, 12⟩, ⟨60298321095251595, 16⟩),
  (⟨24515450000000000, 10⟩, ⟨17529134662435576, 12⟩, ⟨56874977666873292, 16⟩),
  (⟨24515450000000000, 10⟩, ⟨33761338593117951, 12⟩, ⟨34547801283652646, 16⟩),
  (⟨24515450000000000, 10⟩, ⟨24015280441039929, 12⟩, ⟨50819606571930791, 16⟩),
  (⟨24515450000000000, 10⟩, ⟨27312955402442170, 12⟩, ⟨32182120176975957, 16⟩),
  (⟨24515450000000000, 10⟩, ⟨14451791963899042, 12⟩, ⟨86274009979653243, 17⟩)]

/-- Entries 400 to 499. -/
def Era_4 : List (Dec × Dec × Dec) := [
  (⟨24515450000000000, 10⟩, ⟨16932984060737926, 12⟩, ⟨76933499566916907, 17⟩),
  (⟨24515450000000000, 10⟩, ⟨14483839685329862, 12⟩, ⟨17138733517886422, 16⟩),
  (⟨24515450000000000, 10⟩, ⟨20362171689815856, 12⟩, ⟨43890768892998722, 16⟩),
  (⟨24515450000000000, 10⟩, ⟨33616683622806573, 12⟩, ⟨31342848227088282, 16⟩),
  (⟨24515450000000000, 10⟩, ⟨12785582872605633, 12⟩, ⟨23024792947544768, 16⟩),
  (⟨24515450000000000, 10⟩, ⟨16108351792544199, 12⟩, ⟨14607603311751021, 16⟩),
  (⟨24515450000000000, 10⟩, ⟨15626802061530476, 12⟩, ⟨22893641698978797, 16⟩),
  (⟨24515450000000000, 10⟩, ⟨98695856517679567, 13⟩, ⟨24239159103061354, 16⟩),
  (⟨24515450000000000, 10⟩, ⟨23884615039215707, 12⟩, ⟨49365732925957246, 16⟩),
  (⟨24515450000000000, 10⟩, ⟨23302928925949094, 12⟩, ⟨31856981342753912, 16⟩),
  (⟨24515450000000000, 10⟩, ⟨24746630402645122, 12⟩, ⟨10120917233551907, 16⟩),
  (⟨24515450000000000, 10⟩, ⟨27870384385346897, 13⟩, ⟨28141308945595327, 16⟩),
  (⟨24515450000000000, 10⟩, ⟨73780088056299455, 13⟩, ⟨62044148561020620, 16⟩),
  (⟨24515450000000000, 10⟩, ⟨31157280791974925, 12⟩, ⟨22784320664455748, 16⟩),
  (⟨24515450000000000, 10⟩, ⟨17787291216601585, 12⟩, ⟨48288266984449493, 16⟩),
  (⟨24515450000000000, 10⟩, ⟨15613864407784502, 13⟩, ⟨27663636388004136, 16⟩),
  (⟨24515450000000000, 10⟩, ⟨31259860673621632, 12⟩, ⟨14033481466510338, 16⟩),
  (⟨24515450000000000, 10⟩, ⟨32081070394940853, 12⟩, ⟨42812925388925009, 16⟩),
  (⟨24515450000000000, 10⟩, ⟨16861963685505725, 12⟩, ⟨57027936950054468, 16⟩),
  (⟨24515450000000000, 10⟩, ⟨89096733727287210, 13⟩, ⟨53120554831362554, 16⟩),
  (⟨24515450000000000, 10⟩, ⟨19137297160788861, 12⟩, ⟨29564785794403363, 16⟩),
  (⟨24515450000000000, 10⟩, ⟨54710467491358877, 13⟩, ⟨50548437320518147, 16⟩),
  (⟨24515450000000000, 10⟩, ⟨11337550197712637, 12⟩, ⟨23206000115536369, 16⟩),
  (⟨24515450000000000, 10⟩, ⟨33213613952791689, 12⟩, ⟨20460436710896772, 16⟩),
  (⟨24515450000000000, 10⟩, ⟨13160733341649204, 13⟩, ⟨28623219601424204, 16⟩),
  (⟨24515450000000000, 10⟩, ⟨16250169167652326, 12⟩, ⟨27528622473313433, 16⟩),
  (⟨24515450000000000, 10⟩, ⟨19785765797298216, 12⟩, ⟨44897119292147849, 16⟩),
  (⟨24515450000000000, 10⟩, ⟨26132537862302783, 12⟩, ⟨54217166782121922, 16⟩),
  (⟨24515450000000000, 10⟩, ⟨35138639739967992, 12⟩, ⟨39067820204303203, 16⟩),
  (⟨24515450000000000, 10⟩, ⟨14527602759098576, 12⟩, ⟨97804219022172134, 17⟩),
  (⟨24515450000000000, 10⟩, ⟨14087079053053569, 12⟩, ⟨26759027787723468, 16⟩),
  (⟨24515450000000000, 10⟩, ⟨29300905216388630, 12⟩, ⟨56840268936478893, 16⟩),
  (⟨24515450000000000, 10⟩, ⟨29894302135673817, 12⟩, ⟨58192940650540805, 16⟩),
  (⟨24515450000000000, 10⟩, ⟨12145744097258734, 12⟩, ⟨48752327679075762, 16⟩),
  (⟨24515450000000000, 10⟩, ⟨22081886285356653, 12⟩, ⟨76274053939924613, 17⟩),
  (⟨24515450000000000, 10⟩, ⟨79103089406502349, 13⟩, ⟨46805707019409084, 16⟩),
  (⟨24515450000000000, 10⟩, ⟨12844327643134618, 12⟩, ⟨17093633242605222, 16⟩),
  (⟨24515450000000000, 10⟩, ⟨12381818089339940, 13⟩, ⟨22039850309733957, 16⟩),
  (⟨24515450000000000, 10⟩, ⟨13259909030390310, 12⟩, ⟨62280475315269328, 16⟩),
  (⟨24515450000000000, 10⟩, ⟨14454399731058886, 12⟩, ⟨47263130676836340, 16⟩),
  (⟨24515450000000000, 10⟩, ⟨12637210470002343, 12⟩, ⟨36934613229913609, 16⟩),
  (⟨24515450000000000, 10⟩, ⟨24157994862754502, 12⟩, ⟨57426184804558531, 16⟩),
  (⟨24515450000000000, 10⟩, ⟨31766308722857379, 12⟩, ⟨36416419571577308, 17⟩),
  (⟨24515450000000000, 10⟩, ⟨21763624289354921, 12⟩, ⟨62081417179339553, 16⟩),
  (⟨24515450000000000, 10⟩, ⟨31537094275851246, 12⟩, ⟨13569511461577903, 16⟩),
  (⟨24515450000000000, 10⟩, ⟨31207286120380344, 12⟩, ⟨31721120640356588, 16⟩),
  (⟨24515450000000000, 10⟩, ⟨13316438903508828, 12⟩, ⟨42465902460368525, 16⟩),
  (⟨24515450000000000, 10⟩, ⟨13387697738303707, 12⟩, ⟨81551919148925833, 17⟩),
  (⟨24515450000000000, 10⟩, ⟨52496660963457180, 13⟩, ⟨51380872771188493, 16⟩),
  (⟨24515450000000000, 10⟩, ⟨70422905258719275, 13⟩, ⟨21994292061686735, 16⟩),
  (⟨24515450000000000, 10⟩, ⟨20801855641559167, 12⟩, ⟨36836241135728329, 16⟩),
  (⟨24515450000000000, 10⟩, ⟨13909352780395060, 12⟩, ⟨13385031314940292, 16⟩),
  (⟨24515450000000000, 10⟩, ⟨14353632431975951, 12⟩, ⟨44549988766218576, 16⟩),
  (⟨24515450000000000, 10⟩, ⟨12467375745391339, 12⟩, ⟨18103897878971154, 16⟩),
  (⟨24515450000000000, 10⟩, ⟨29208493054843722, 12⟩, ⟨15046489326681822, 16⟩),
  (⟨24515450000000000, 10⟩, ⟨15895484167169412, 12⟩, ⟨49138928210825554, 16⟩),
  (⟨24515450000000000, 10⟩, ⟨84576525673888432, 14⟩, ⟨54026610141875153, 16⟩),
  (⟨24515450000000000, 10⟩, ⟨20642527407057732, 12⟩, ⟨51636583227322959, 16⟩),
  (⟨24515450000000000, 10⟩, ⟨10223959053562159, 12⟩, ⟨45828781644876599, 16⟩),
  (⟨24515450000000000, 10⟩, ⟨33679811060746550, 12⟩, ⟨50209305383151062, 16⟩),
  (⟨24515450000000000, 10⟩, ⟨14408161065505203, 12⟩, ⟨24313273392789654, 16⟩),
  (⟨24515450000000000, 10⟩, ⟨52413924736927902, 13⟩, ⟨32765411019181059, 16⟩),
  (⟨24515450000000000, 10⟩, ⟨92948470917963023, 13⟩, ⟨46302144484561580, 17⟩),
  (⟨24515450000000000, 10⟩, ⟨24732808795356643, 12⟩, ⟨18952044166978865, 16⟩),
  (⟨24515450000000000, 10⟩, ⟨33457168728789948, 12⟩, ⟨34382917580726087, 16⟩),
  (⟨24515450000000000, 10⟩, ⟨20413987413181443, 12⟩, ⟨41225760256585673, 16⟩),
  (⟨24515450000000000, 10⟩, ⟨24140251617850754, 12⟩, ⟨76745053650949302, 17⟩),
  (⟨24515450000000000, 10⟩, ⟨83747402291602957, 13⟩, ⟨28132961424628320, 16⟩),
  (⟨24515450000000000, 10⟩, ⟨31783218766406917, 12⟩, ⟨89840753653618322, 18⟩),
  (⟨24515450000000000, 10⟩, ⟨23744336000793544, 12⟩, ⟨77021796874477388, 17⟩),
  (⟨24515450000000000, 10⟩, ⟨46597372391660447, 13⟩, ⟨17202139698635079, 16⟩),
  (⟨24515450000000000, 10⟩, ⟨42382273405119131, 13⟩, ⟨38319078830413673, 16⟩),
  (⟨24515450000000000, 10⟩, ⟨35246864785599893, 12⟩, ⟨89930679055869689, 17⟩),
  (⟨24515450000000000, 10⟩, ⟨25852404363385613, 12⟩, ⟨60471967970898604, 16⟩),
  (⟨24515450000000000, 10⟩, ⟨29249906642022415, 14⟩, ⟨49593886347553529, 17⟩),
  (⟨24515450000000000, 10⟩, ⟨81671705795690868, 13⟩, ⟨19466171212795516, 16⟩),
  (⟨24515450000000000, 10⟩, ⟨29490828629881653, 13⟩, ⟨58807752565325160, 16⟩),
  (⟨24515450000000000, 10⟩, ⟨88814851079901200, 13⟩, ⟨36442536517505815, 16⟩),
  (⟨24515450000000000, 10⟩, ⟨25576261578808673, 12⟩, ⟨39979707247172058, 17⟩),
  (⟨24515450000000000, 10⟩, ⟨26650315516386330, 12⟩, ⟨36520965408102768, 17⟩),
  (⟨24515450000000000, 10⟩, ⟨10905655949147254, 12⟩, ⟨18387187575987625, 16⟩),
  (⟨24515450000000000, 10⟩, ⟨18828527344496877, 12⟩, ⟨53744369515073629, 16⟩),
  (⟨24515450000000000, 10⟩, ⟨10041889803502069, 13⟩, ⟨45070430185155566, 16⟩),
  (⟨24515450000000000, 10⟩, ⟨34956363975617300, 12⟩, ⟨53217483805223083, 16⟩),
  (⟨24515450000000000, 10⟩, ⟨28586228060526719, 12⟩, ⟨17016969723152542, 16⟩),
  (⟨24515450000000000, 10⟩, ⟨93948780926473573, 13⟩, ⟨23785567764360778, 16⟩),
  (⟨24515450000000000, 10⟩, ⟨16298737385492721, 12⟩, ⟨87537413113857099, 17⟩),
  (⟨24515450000000000, 10⟩, ⟨19104818819263732, 12⟩, ⟨56754571808909375, 16⟩),
  (⟨24515450000000000, 10⟩, ⟨61971044812596128, 13⟩, ⟨53409902392212913, 16⟩),
  (⟨24515450000000000, 10⟩, ⟨11171204997322882, 13⟩, ⟨60194348822980039, 16⟩),
  (⟨24515450000000000, 10⟩, ⟨33058180375048207, 12⟩, ⟨29311833545332249, 16⟩),
  (⟨24515450000000000, 10⟩, ⟨26285908471908060, 12⟩, ⟨41054489656058664, 16⟩),
  (⟨24515450000000000, 10⟩, ⟨59252360407738624, 13⟩, ⟨14908733120967312, 16⟩),
  (⟨24515450000000000, 10⟩, ⟨31219928316474194, 12⟩, ⟨11414371454921692, 16⟩),
  (⟨24515450000000000, 10⟩, ⟨10262538046834045, 12⟩, ⟨26012576462689836, 16⟩),
  (⟨24515450000000000, 10⟩, ⟨26324058198371044, 13⟩, ⟨24624376209982941, 16⟩),
  (⟨24515450000000000, 10⟩, ⟨25741231545938652, 12⟩, ⟨30489379839128432, 16⟩),
  (⟨24515450000000000, 10⟩, ⟨28194000204323042, 12⟩, ⟨60892308187514530, 16⟩),
  (⟨24515450000000000, 10⟩, ⟨27951654373461210, 12⟩, ⟨60306202343026101, 16⟩),
  (⟨24515450000000000, 10⟩, ⟨31695481448020742, 12⟩, ⟨23104490377835418, 17⟩)]

/-- Entries 500 to 599. -/
def Era_5 : List (Dec × Dec × Dec) := [
  (⟨24515450000000000, 10⟩, ⟨58414411315386451, 13⟩, ⟨13380415158618675, 16⟩),
  (⟨24515450000000000, 10⟩, ⟨28230075686602879, 12⟩, ⟨90089158763849753, 17⟩),
  (⟨24515450000000000, 10⟩, ⟨35483383557386587, 12⟩, ⟨19442991365038580, 16⟩),
  (⟨24515450000000000, 10⟩, ⟨24144494238987696, 12⟩, ⟨23648664300223956, 16⟩),
  (⟨24515450000000000, 10⟩, ⟨69439668115839877, 13⟩, ⟨47572754659549048, 16⟩),
  (⟨24515450000000000, 10⟩, ⟨62965169062697703, 14⟩, ⟨97147971555478563, 17⟩),
  (⟨24515450000000000, 10⟩, ⟨22223912887585997, 12⟩, ⟨33730543919597125, 16⟩),
  (⟨24515450000000000, 10⟩, ⟨34658969858471464, 12⟩, ⟨40127956199171422, 16⟩),
  (⟨24515450000000000, 10⟩, ⟨30058243409275135, 12⟩, ⟨19872671408177709, 16⟩),
  (⟨24515450000000000, 10⟩, ⟨27887126291997687, 12⟩, ⟨16025628967223682, 16⟩),
  (⟨24515450000000000, 10⟩, ⟨17535640606127075, 12⟩, ⟨26951668398873849, 16⟩),
  (⟨24515450000000000, 10⟩, ⟨18767813128579644, 12⟩, ⟨61256544563986211, 16⟩),
  (⟨24515450000000000, 10⟩, ⟨31526128675489759, 12⟩, ⟨13844582228643603, 16⟩),
  (⟨24515450000000000, 10⟩, ⟨20976092028056817, 12⟩, ⟨18829445843208106, 16⟩),
  (⟨24515450000000000, 10⟩, ⟨48841696204377212, 14⟩, ⟨33502766742170849, 16⟩),
  (⟨24515450000000000, 10⟩, ⟨12498439915704130, 12⟩, ⟨27479551904608215, 16⟩),
  (⟨24515450000000000, 10⟩, ⟨36478989523779004, 12⟩, ⟨40287349685108964, 16⟩),
  (⟨24515450000000000, 10⟩, ⟨90381712401724526, 13⟩, ⟨43675069741370081, 16⟩),
  (⟨24515450000000000, 10⟩, ⟨34407050649758203, 12⟩, ⟨18686277896190262, 17⟩),
  (⟨24515450000000000, 10⟩, ⟨30091927523524530, 12⟩, ⟨58193861601412777, 17⟩),
  (⟨24515450000000000, 10⟩, ⟨35770195318743325, 12⟩, ⟨56953482820634491, 16⟩),
  (⟨24515450000000000, 10⟩, ⟨25309211478831807, 12⟩, ⟨17743511657250082, 16⟩),
  (⟨24515450000000000, 10⟩, ⟨11870867205187455, 12⟩, ⟨92026103834872686, 17⟩),
  (⟨24515450000000000, 10⟩, ⟨50099618632883939, 13⟩, ⟨28730105236918391, 16⟩),
  (⟨24515450000000000, 10⟩, ⟨19485524232093678, 12⟩, ⟨40902889719124431, 16⟩),
  (⟨24515450000000000, 10⟩, ⟨85331164795436143, 13⟩, ⟨16185784151190887, 16⟩),
  (⟨24515450000000000, 10⟩, ⟨14752284235547955, 12⟩, ⟨28417108020839024, 16⟩),
  (⟨24515450000000000, 10⟩, ⟨31616325066097463, 12⟩, ⟨41699913119276388, 16⟩),
  (⟨24515450000000000, 10⟩, ⟨29046042722860475, 12⟩, ⟨21638151565206272, 16⟩),
  (⟨24515450000000000, 10⟩, ⟨18163231637313995, 12⟩, ⟨46382883135540993, 16⟩),
  (⟨24515450000000000, 10⟩, ⟨23802010153000960, 12⟩, ⟨59981623363013128, 16⟩),
  (⟨24515450000000000, 10⟩, ⟨33183652225520309, 12⟩, ⟨17711113043114608, 16⟩),
  (⟨24515450000000000, 10⟩, ⟨25373933541056078, 12⟩, ⟨11413771538177215, 16⟩),
  (⟨24515450000000000, 10⟩, ⟨15954620794270872, 12⟩, ⟨50643978922904154, 17⟩),
  (⟨24515450000000000, 10⟩, ⟨24676124775616656, 12⟩, ⟨29054782571566591, 16⟩),
  (⟨24515450000000000, 10⟩, ⟨26440377817164604, 12⟩, ⟨34284562943134702, 16⟩),
  (⟨24515450000000000, 10⟩, ⟨19579769445683576, 13⟩, ⟨73245882505174364, 17⟩),
  (⟨24515450000000000, 10⟩, ⟨13363464440117910, 12⟩, ⟨52159832183898303, 16⟩),
  (⟨24515450000000000, 10⟩, ⟨51490426054411209, 13⟩, ⟨57728203333455497, 16⟩),
  (⟨24515450000000000, 10⟩, ⟨25195752445755879, 13⟩, ⟨15860328312838092, 16⟩),
  (⟨24515450000000000, 10⟩, ⟨27762116922914920, 13⟩, ⟨37164727206223134, 16⟩),
  (⟨24515450000000000, 10⟩, ⟨60720071702142804, 13⟩, ⟨25776204999806183, 16⟩),
  (⟨24515450000000000, 10⟩, ⟨90779683034358968, 13⟩, ⟨37770140815478470, 16⟩),
  (⟨24515450000000000, 10⟩, ⟨34403342889166452, 12⟩, ⟨19592755715288135, 16⟩),
  (⟨24515450000000000, 10⟩, ⟨40609576131766321, 13⟩, ⟨53709206773626335, 16⟩),
  (⟨24515450000000000, 10⟩, ⟨36190303413959242, 12⟩, ⟨10349348350498815, 16⟩),
  (⟨24515450000000000, 10⟩, ⟨23929861516223718, 12⟩, ⟨98038672335007249, 17⟩),
  (⟨24515450000000000, 10⟩, ⟨34155564276280267, 12⟩, ⟨53711449456604186, 16⟩),
  (⟨24515450000000000, 10⟩, ⟨70602746985709118, 13⟩, ⟨24093503092550463, 16⟩),
  (⟨24515450000000000, 10⟩, ⟨47927577543568241, 13⟩, ⟨41373575046458768, 16⟩),
  (⟨24515450000000000, 10⟩, ⟨36507162683257397, 12⟩, ⟨56013678074937445, 16⟩),
  (⟨24515450000000000, 10⟩, ⟨75564118273690829, 13⟩, ⟨55224106354668621, 16⟩),
  (⟨24515450000000000, 10⟩, ⟨17530839991797453, 12⟩, ⟨38653629246959795, 16⟩),
  (⟨24515450000000000, 10⟩, ⟨43303254808262309, 13⟩, ⟨60328304122377574, 16⟩),
  (⟨24515450000000000, 10⟩, ⟨29887417240685365, 12⟩, ⟨14089967526575009, 17⟩),
  (⟨24515450000000000, 10⟩, ⟨29751869076748239, 13⟩, ⟨70036846019677768, 17⟩),
  (⟨24515450000000000, 10⟩, ⟨29715015475596094, 12⟩, ⟨93403435444504623, 17⟩),
  (⟨24515450000000000, 10⟩, ⟨29395076282597180, 12⟩, ⟨20956298662946224, 16⟩),
  (⟨24515450000000000, 10⟩, ⟨83494577610064553, 13⟩, ⟨60358283121857426, 17⟩),
  (⟨24515450000000000, 10⟩, ⟨17023369154059521, 13⟩, ⟨48798419217464399, 16⟩),
  (⟨24515450000000000, 10⟩, ⟨13448240777962215, 12⟩, ⟨52690102352847035, 16⟩),
  (⟨24515450000000000, 10⟩, ⟨30418748291586933, 12⟩, ⟨50778206802599755, 16⟩),
  (⟨24515450000000000, 10⟩, ⟨83910922602860483, 13⟩, ⟨53064635153062554, 16⟩),
  (⟨24515450000000000, 10⟩, ⟨12113567068472079, 12⟩, ⟨32094130692646416, 16⟩),
  (⟨24515450000000000, 10⟩, ⟨11588015652595445, 13⟩, ⟨47325156632894014, 16⟩),
  (⟨24515450000000000, 10⟩, ⟨22629994116045378, 12⟩, ⟨45857247613830268, 16⟩),
  (⟨24515450000000000, 10⟩, ⟨79391797610877638, 13⟩, ⟨43655526106855262, 16⟩),
  (⟨24515450000000000, 10⟩, ⟨26142428317822625, 12⟩, ⟨49035658019363950, 16⟩),
  (⟨24515450000000000, 10⟩, ⟨29248424774076881, 12⟩, ⟨17625408266820060, 16⟩),
  (⟨24515450000000000, 10⟩, ⟨22411369038725363, 12⟩, ⟨31806055958801807, 16⟩),
  (⟨24515450000000000, 10⟩, ⟨29791731982753761, 12⟩, ⟨47248742532183741, 17⟩),
  (⟨24515450000000000, 10⟩, ⟨19796462832023499, 12⟩, ⟨27701372787924683, 16⟩),
  (⟨24515450000000000, 10⟩, ⟨79665625483009962, 13⟩, ⟨95853392037673046, 17⟩),
  (⟨24515450000000000, 10⟩, ⟨21847483025863642, 14⟩, ⟨53534656728927388, 16⟩),
  (⟨24515450000000000, 10⟩, ⟨60059376910235433, 13⟩, ⟨10045308241041369, 16⟩),
  (⟨24515450000000000, 10⟩, ⟨34987032614653275, 12⟩, ⟨37673134760159428, 16⟩),
  (⟨24515450000000000, 10⟩, ⟨50986301758773625, 13⟩, ⟨23142452919118668, 16⟩),
  (⟨24515450000000000, 10⟩, ⟨29385082580176248, 12⟩, ⟨19632852588984306, 16⟩),
  (⟨24515450000000000, 10⟩, ⟨23257618949824220, 12⟩, ⟨45863035503990801, 17⟩),
  (⟨24515450000000000, 10⟩, ⟨27851787882170638, 13⟩, ⟨36639839180088885, 16⟩),
  (⟨24515450000000000, 10⟩, ⟨97497028438827037, 13⟩, ⟨10980100945753009, 16⟩),
  (⟨24515450000000000, 10⟩, ⟨16120137945397404, 12⟩, ⟨31986659833155073, 17⟩),
  (⟨24515450000000000, 10⟩, ⟨27731733844492072, 12⟩, ⟨27468390161507799, 16⟩),
  (⟨24515450000000000, 10⟩, ⟨23350223741533890, 12⟩, ⟨58516529956563090, 16⟩),
  (⟨24515450000000000, 10⟩, ⟨29900734348155620, 12⟩, ⟨23624279472950818, 16⟩),
  (⟨24515450000000000, 10⟩, ⟨84645035996287006, 13⟩, ⟨28706345643763314, 16⟩),
  (⟨24515450000000000, 10⟩, ⟨29331869951112396, 12⟩, ⟨59951095553788960, 16⟩),
  (⟨24515450000000000, 10⟩, ⟨35796255565962376, 12⟩, ⟨23900046886245008, 17⟩),
  (⟨24515450000000000, 10⟩, ⟨87577922184384734, 13⟩, ⟨34460982102774054, 16⟩),
  (⟨24515450000000000, 10⟩, ⟨35597669154463889, 12⟩, ⟨57047198601666906, 16⟩),
  (⟨24515450000000000, 10⟩, ⟨74574788423942045, 13⟩, ⟨42416154832190003, 16⟩),
  (⟨24515450000000000, 10⟩, ⟨35576100585894390, 12⟩, ⟨17612717884537261, 16⟩),
  (⟨24515450000000000, 10⟩, ⟨17612652155754797, 12⟩, ⟨40925017971528419, 16⟩),
  (⟨24515450000000000, 10⟩, ⟨39791122084609412, 14⟩, ⟨48989003062379162, 16⟩),
  (⟨24515450000000000, 10⟩, ⟨17809601685753365, 12⟩, ⟨88016530081962685, 17⟩),
  (⟨24515450000000000, 10⟩, ⟨18154584613517025, 12⟩, ⟨42417024289152749, 17⟩),
  (⟨24515450000000000, 10⟩, ⟨16320025734674162, 12⟩, ⟨30533314767851678, 16⟩),
  (⟨24515450000000000, 10⟩, ⟨86538109486147296, 13⟩, ⟨17750789025614111, 16⟩),
  (⟨24515450000000000, 10⟩, ⟨20108825235447512, 12⟩, ⟨41373139968968076, 16⟩),
  (⟨24515450000000000, 10⟩, ⟨20805947935303837, 12⟩, ⟨43339191859003705, 16⟩)]

/-- Entries 600 to 699. -/
def Era_6 : List (Dec × Dec × Dec) := [
  (⟨24515450000000000, 10⟩, ⟨19038058148599299, 12⟩, ⟨60307787003703481, 16⟩),
  (⟨24515450000000000, 10⟩, ⟨84474383972980668, 13⟩, ⟨21673975635644922, 16⟩),
  (⟨24515450000000000, 10⟩, ⟨93155806373428404, 13⟩, ⟨54286862187241951, 16⟩),
  (⟨24515450000000000, 10⟩, ⟨66486545774672632, 13⟩, ⟨39986218764883645, 16⟩),
  (⟨24515450000000000, 10⟩, ⟨23328860886196875, 12⟩, ⟨32042779997479229, 16⟩),
  (⟨24515450000000000, 10⟩, ⟨89492592743547368, 14⟩, ⟨97467015247467614, 17⟩),
  (⟨24515450000000000, 10⟩, ⟨17718738619504111, 12⟩, ⟨17750264918574032, 17⟩),
  (⟨24515450000000000, 10⟩, ⟨60843091817570466, 13⟩, ⟨46868363997831963, 16⟩),
  (⟨24515450000000000, 10⟩, ⟨32994486956402558, 12⟩, ⟨37618251903417033, 16⟩),
  (⟨24515450000000000, 10⟩, ⟨14048983937949904, 12⟩, ⟨14229579459853028, 16⟩),
  (⟨24515450000000000, 10⟩, ⟨19336726974321289, 12⟩, ⟨28045188090811592, 16⟩),
  (⟨24515450000000000, 10⟩, ⟨12544867372287517, 12⟩, ⟨62323975600278558, 16⟩),
  (⟨24515450000000000, 10⟩, ⟨12043310994386134, 13⟩, ⟨25596989526100522, 16⟩),
  (⟨24515450000000000, 10⟩, ⟨53975457752789980, 13⟩, ⟨64275520391996110, 17⟩),
  (⟨24515450000000000, 10⟩, ⟨32492500381721079, 13⟩, ⟨58115122589340515, 16⟩),
  (⟨24515450000000000, 10⟩, ⟨10820807895238377, 12⟩, ⟨13338527448708462, 16⟩),
  (⟨24515450000000000, 10⟩, ⟨20882567460493305, 12⟩, ⟨32613482778918552, 16⟩),
  (⟨24515450000000000, 10⟩, ⟨35041921571467392, 12⟩, ⟨40138182538256402, 16⟩),
  (⟨24515450000000000, 10⟩, ⟨26188166422463059, 13⟩, ⟨48099474731564911, 16⟩),
  (⟨24515450000000000, 10⟩, ⟨80303718575906105, 13⟩, ⟨85804804763753140, 17⟩),
  (⟨24515450000000000, 10⟩, ⟨29183227021578328, 12⟩, ⟨56816670941173584, 16⟩),
  (⟨24515450000000000, 10⟩, ⟨10856094723671107, 12⟩, ⟨37430592984253934, 16⟩),
  (⟨24515450000000000, 10⟩, ⟨24622866868257050, 12⟩, ⟨36884643846395448, 17⟩),
  (⟨24515450000000000, 10⟩, ⟨32119048245945931, 12⟩, ⟨47954281123027727, 16⟩),
  (⟨24515450000000000, 10⟩, ⟨32255170157503293, 12⟩, ⟨16198292778517853, 16⟩),
  (⟨24515450000000000, 10⟩, ⟨14140142134385813, 12⟩, ⟨39850551325789283, 16⟩),
  (⟨24515450000000000, 10⟩, ⟨10762372812853773, 12⟩, ⟨38781240250232685, 16⟩),
  (⟨24515450000000000, 10⟩, ⟨21927387844189001, 12⟩, ⟨12564176964309652, 16⟩),
  (⟨24515450000000000, 10⟩, ⟨74556576709168769, 14⟩, ⟨24255809797283696, 16⟩),
  (⟨24515450000000000, 10⟩, ⟨59325215536778542, 13⟩, ⟨34101304967399884, 16⟩),
  (⟨24515450000000000, 10⟩, ⟨10706598554354659, 12⟩, ⟨43370608962343766, 16⟩),
  (⟨24515450000000000, 10⟩, ⟨11781223243764087, 12⟩, ⟨16152458695927479, 16⟩),
  (⟨24515450000000000, 10⟩, ⟨10310572249950017, 12⟩, ⟨36424551497622204, 16⟩),
  (⟨24515450000000000, 10⟩, ⟨98502757977223155, 13⟩, ⟨14487394649796670, 17⟩),
  (⟨24515450000000000, 10⟩, ⟨25144753684391395, 12⟩, ⟨23520966586880689, 16⟩),
  (⟨24515450000000000, 10⟩, ⟨10745970987592520, 12⟩, ⟨10712343039578442, 16⟩),
  (⟨24515450000000000, 10⟩, ⟨33264074651542127, 12⟩, ⟨58087332922724428, 16⟩),
  (⟨24515450000000000, 10⟩, ⟨23931950828237550, 12⟩, ⟨15774913768623762, 16⟩),
  (⟨24515450000000000, 10⟩, ⟨94968112180739918, 13⟩, ⟨37118433678964706, 16⟩),
  (⟨24515450000000000, 10⟩, ⟨22354724632569025, 12⟩, ⟨44404603630667765, 16⟩),
  (⟨24515450000000000, 10⟩, ⟨34147175403883863, 12⟩, ⟨27834807288062819, 16⟩),
  (⟨24515450000000000, 10⟩, ⟨20446986399842132, 12⟩, ⟨46838635213228841, 16⟩),
  (⟨24515450000000000, 10⟩, ⟨19559860760420506, 12⟩, ⟨12003238125900779, 16⟩),
  (⟨24515450000000000, 10⟩, ⟨28746907791062345, 12⟩, ⟨24534261582024897, 16⟩),
  (⟨24515450000000000, 10⟩, ⟨35761237887727912, 12⟩, ⟨58087297637019475, 16⟩),
  (⟨24515450000000000, 10⟩, ⟨20747384621918169, 12⟩, ⟨60702854715307026, 16⟩),
  (⟨24515450000000000, 10⟩, ⟨81690469605538592, 13⟩, ⟨12021737837649411, 16⟩),
  (⟨24515450000000000, 10⟩, ⟨64537777305446771, 13⟩, ⟨14201089672098348, 16⟩),
  (⟨24515450000000000, 10⟩, ⟨32408224228572857, 12⟩, ⟨45924314429411552, 16⟩),
  (⟨24515450000000000, 10⟩, ⟨13205614031066651, 12⟩, ⟨34405197870764610, 16⟩),
  (⟨24515450000000000, 10⟩, ⟨35407181137834552, 12⟩, ⟨56447971832472845, 16⟩),
  (⟨24515450000000000, 10⟩, ⟨12092950009922386, 12⟩, ⟨52608468198587701, 16⟩),
  (⟨24515450000000000, 10⟩, ⟨34174074672071052, 12⟩, ⟨26132901243890245, 16⟩),
  (⟨24515450000000000, 10⟩, ⟨11858419738259858, 12⟩, ⟨41778051592572254, 16⟩),
  (⟨24515450000000000, 10⟩, ⟨43581071982956319, 13⟩, ⟨51392269159813111, 16⟩),
  (⟨24515450000000000, 10⟩, ⟨87393883382798958, 13⟩, ⟨59185748067265109, 17⟩),
  (⟨24515450000000000, 10⟩, ⟨16838678053423122, 12⟩, ⟨35075507657264424, 16⟩),
  (⟨24515450000000000, 10⟩, ⟨13448525607683789, 12⟩, ⟨78036254176113573, 17⟩),
  (⟨24515450000000000, 10⟩, ⟨28021911934129359, 12⟩, ⟨25743195080786307, 16⟩),
  (⟨24515450000000000, 10⟩, ⟨26186063602985603, 12⟩, ⟨33626169078405610, 16⟩),
  (⟨24515450000000000, 10⟩, ⟨38984479708350864, 13⟩, ⟨56564086619576912, 16⟩),
  (⟨24515450000000000, 10⟩, ⟨25275522930720513, 13⟩, ⟨15790469022011777, 16⟩),
  (⟨24515450000000000, 10⟩, ⟨12342092966144255, 12⟩, ⟨41616838183326905, 16⟩),
  (⟨24515450000000000, 10⟩, ⟨11893119559875722, 12⟩, ⟨28886413091891043, 16⟩),
  (⟨24515450000000000, 10⟩, ⟨19868421967912076, 12⟩, ⟨37512344719450184, 16⟩),
  (⟨24515450000000000, 10⟩, ⟨35047977453945496, 12⟩, ⟨44691125970507315, 16⟩),
  (⟨24515450000000000, 10⟩, ⟨43720519152643292, 13⟩, ⟨50317529113854391, 16⟩),
  (⟨24515450000000000, 10⟩, ⟨26970184767507519, 12⟩, ⟨50461385181873908, 16⟩),
  (⟨24515450000000000, 10⟩, ⟨18483671366506922, 12⟩, ⟨34707946795222711, 17⟩),
  (⟨24515450000000000, 10⟩, ⟨24241133920992648, 12⟩, ⟨17633348615691986, 16⟩),
  (⟨24515450000000000, 10⟩, ⟨22118416057313119, 12⟩, ⟨47197876094599636, 16⟩),
  (⟨24515450000000000, 10⟩, ⟨27558541180382690, 12⟩, ⟨48401887129195700, 16⟩),
  (⟨24515450000000000, 10⟩, ⟨10598105000382351, 12⟩, ⟨56528295381183469, 16⟩),
  (⟨24515450000000000, 10⟩, ⟨21692471326742434, 12⟩, ⟨40230632384397893, 16⟩),
  (⟨24515450000000000, 10⟩, ⟨11349664196669803, 12⟩, ⟨32452637696862894, 16⟩),
  (⟨24515450000000000, 10⟩, ⟨30414343047686275, 13⟩, ⟨33944098662222970, 16⟩),
  (⟨24515450000000000, 10⟩, ⟨21080905202633083, 12⟩, ⟨25121008778184475, 16⟩),
  (⟨24515450000000000, 10⟩, ⟨13710418852218532, 12⟩, ⟨46147327930311661, 16⟩),
  (⟨24515450000000000, 10⟩, ⟨18247866134065483, 12⟩, ⟨37976614841614307, 16⟩),
  (⟨24515450000000000, 10⟩, ⟨20326156927907992, 12⟩, ⟨36767926850076833, 16⟩),
  (⟨24515450000000000, 10⟩, ⟨22692240628008374, 12⟩, ⟨92219547486396181, 17⟩),
  (⟨24515450000000000, 10⟩, ⟨11198249606997624, 12⟩, ⟨43188443782734325, 16⟩),
  (⟨24515450000000000, 10⟩, ⟨14119994509380535, 12⟩, ⟨27109168050864412, 16⟩),
  (⟨24515450000000000, 10⟩, ⟨31153139286674788, 12⟩, ⟨13180851258551769, 16⟩),
  (⟨24515450000000000, 10⟩, ⟨18977383333501140, 12⟩, ⟨74705132554505127, 17⟩),
  (⟨24515450000000000, 10⟩, ⟨21783245839648582, 12⟩, ⟨41678055152553668, 16⟩),
  (⟨24515450000000000, 10⟩, ⟨34579404035944077, 12⟩, ⟨53721075693771567, 16⟩),
  (⟨24515450000000000, 10⟩, ⟨23758264259123349, 12⟩, ⟨55904816161974225, 17⟩),
  (⟨24515450000000000, 10⟩, ⟨29930624294029258, 12⟩, ⟨21851096939540682, 16⟩),
  (⟨24515450000000000, 10⟩, ⟨26723680261356338, 12⟩, ⟨39190034079656044, 16⟩),
  (⟨24515450000000000, 10⟩, ⟨17251134139149504, 12⟩, ⟨90199493975421774, 17⟩),
  (⟨24515450000000000, 10⟩, ⟨19895960539691918, 12⟩, ⟨13257189157311586, 16⟩),
  (⟨24515450000000000, 10⟩, ⟨15143157394162448, 12⟩, ⟨24854278307746114, 16⟩),
  (⟨24515450000000000, 10⟩, ⟨20023956105662528, 12⟩, ⟨34996617980788756, 16⟩),
  (⟨24515450000000000, 10⟩, ⟨33322410739949963, 12⟩, ⟨26407615996278935, 16⟩),
  (⟨24515450000000000, 10⟩, ⟨14963358196735733, 12⟩, ⟨65416952726259581, 17⟩),
  (⟨24515450000000000, 10⟩, ⟨34973834459253507, 12⟩, ⟨22952293404037860, 16⟩),
  (⟨24515450000000000, 10⟩, ⟨16921732607592872, 12⟩, ⟨52790440789160797, 16⟩),
  (⟨24515450000000000, 10⟩, ⟨15583576056360425, 12⟩, ⟨12575030283440469, 17⟩),
  (⟨24515450000000000, 10⟩, ⟨28131246378560998, 12⟩, ⟨27330128671370346, 17⟩)]

/-- Entries 700 to 799. -/
def Era_7 : List (Dec × Dec × Dec) := [
  (⟨24515450000000000, 10⟩, ⟨27349135722130282, 12⟩, ⟨49735743890022874, 16⟩),
  (⟨24515450000000000, 10⟩, ⟨19677442376934368, 14⟩, ⟨57938762103081309, 17⟩),
  (⟨24515450000000000, 10⟩, ⟨15793774645501891, 12⟩, ⟨49893965555338298, 16⟩),
  (⟨24515450000000000, 10⟩, ⟨65604063299130047, 15⟩, ⟨35357504290818014, 16⟩),
  (⟨24515450000000000, 10⟩, ⟨32711403133712560, 12⟩, ⟨46486782505593425, 16⟩),
  (⟨24515450000000000, 10⟩, ⟨28732413421061701, 12⟩, ⟨53810583854426213, 16⟩),
  (⟨24515450000000000, 10⟩, ⟨82400719888479689, 13⟩, ⟨25812164846307368, 16⟩),
  (⟨24515450000000000, 10⟩, ⟨13842630458989166, 12⟩, ⟨19354398395975849, 16⟩),
  (⟨24515450000000000, 10⟩, ⟨10473729228091208, 12⟩, ⟨11522482298001790, 16⟩),
  (⟨24515450000000000, 10⟩, ⟨31604232634077161, 12⟩, ⟨33812076129435908, 16⟩),
  (⟨24515450000000000, 10⟩, ⟨37141637526129257, 13⟩, ⟨70052268970395204, 17⟩),
  (⟨24515450000000000, 10⟩, ⟨91346805594486761, 14⟩, ⟨46999290616276497, 16⟩),
  (⟨24515450000000000, 10⟩, ⟨32291293036997173, 12⟩, ⟨30132961681792167, 16⟩),
  (⟨24515450000000000, 10⟩, ⟨32979253716845713, 12⟩, ⟨20342929113528427, 16⟩),
  (⟨24515450000000000, 10⟩, ⟨24935660348094363, 12⟩, ⟨44519715967625828, 16⟩),
  (⟨24515450000000000, 10⟩, ⟨24734524093115215, 12⟩, ⟨13587433650429404, 17⟩),
  (⟨24515450000000000, 10⟩, ⟨26624228688687731, 13⟩, ⟨30859185140420351, 16⟩),
  (⟨24515450000000000, 10⟩, ⟨74964712516859172, 13⟩, ⟨48646760831442535, 16⟩),
  (⟨24515450000000000, 10⟩, ⟨23105413347434282, 12⟩, ⟨28317096419665404, 16⟩),
  (⟨24515450000000000, 10⟩, ⟨82638821910605918, 14⟩, ⟨27003364183707319, 16⟩),
  (⟨24515450000000000, 10⟩, ⟨12432784500140966, 12⟩, ⟨37836268124676948, 16⟩),
  (⟨24515450000000000, 10⟩, ⟨86609879267231809, 13⟩, ⟨30105248195042194, 16⟩),
  (⟨24515450000000000, 10⟩, ⟨30257486326104638, 12⟩, ⟨65778572202864893, 17⟩),
  (⟨24515450000000000, 10⟩, ⟨20389076920953215, 12⟩, ⟨42564551815191862, 16⟩),
  (⟨24515450000000000, 10⟩, ⟨25893880318743868, 12⟩, ⟨34680040359009467, 16⟩),
  (⟨24515450000000000, 10⟩, ⟨11452364276511173, 12⟩, ⟨31274750514790242, 16⟩),
  (⟨24515450000000000, 10⟩, ⟨17941467022625777, 12⟩, ⟨23024231207673012, 16⟩),
  (⟨24515450000000000, 10⟩, ⟨92834016945147760, 13⟩, ⟨37508073175345231, 16⟩),
  (⟨24515450000000000, 10⟩, ⟨32592213277598137, 12⟩, ⟨14054517935134214, 16⟩),
  (⟨24515450000000000, 10⟩, ⟨26179975207564898, 13⟩, ⟨59323499957667494, 16⟩),
  (⟨24515450000000000, 10⟩, ⟨17359218343384877, 12⟩, ⟨32903496447528937, 16⟩),
  (⟨24515450000000000, 10⟩, ⟨23993694880343293, 12⟩, ⟨10314556002914443, 16⟩),
  (⟨24515450000000000, 10⟩, ⟨16487699839973771, 12⟩, ⟨38900347530856578, 16⟩),
  (⟨24515450000000000, 10⟩, ⟨69433473248397991, 14⟩, ⟨92662269981502732, 18⟩),
  (⟨24515450000000000, 10⟩, ⟨11686791599271770, 12⟩, ⟨35618987385788401, 16⟩),
  (⟨24515450000000000, 10⟩, ⟨31512590526966491, 12⟩, ⟨40534709735504393, 16⟩),
  (⟨24515450000000000, 10⟩, ⟨10288533389725324, 12⟩, ⟨30191727257182563, 16⟩),
  (⟨24515450000000000, 10⟩, ⟨86035047575621738, 13⟩, ⟨52690329549003820, 16⟩),
  (⟨24515450000000000, 10⟩, ⟨27571894497641446, 12⟩, ⟨10066673761380187, 16⟩),
  (⟨24515450000000000, 10⟩, ⟨14149356076451746, 12⟩, ⟨54877926638522965, 16⟩),
  (⟨24515450000000000, 10⟩, ⟨10118522212258516, 12⟩, ⟨24379825918806830, 18⟩),
  (⟨24515450000000000, 10⟩, ⟨14925147072141419, 12⟩, ⟨49535052584192627, 16⟩),
  (⟨24515450000000000, 10⟩, ⟨34877439486516683, 12⟩, ⟨44385241196675906, 16⟩),
  (⟨24515450000000000, 10⟩, ⟨93543149849300662, 13⟩, ⟨44258580848897822, 16⟩),
  (⟨24515450000000000, 10⟩, ⟨13528318266943847, 12⟩, ⟨85020990435508281, 17⟩),
  (⟨24515450000000000, 10⟩, ⟨17673252906503181, 12⟩, ⟨26264097622688283, 16⟩),
  (⟨24515450000000000, 10⟩, ⟨46932321492107612, 13⟩, ⟨54060109486480528, 16⟩),
  (⟨24515450000000000, 10⟩, ⟨28890416899017731, 12⟩, ⟨18377299218030885, 16⟩),
  (⟨24515450000000000, 10⟩, ⟨26362024484918365, 12⟩, ⟨61437415317528803, 16⟩),
  (⟨24515450000000000, 10⟩, ⟨53022550771360038, 13⟩, ⟨34602225089079255, 16⟩),
  (⟨24515450000000000, 10⟩, ⟨32299035819270917, 12⟩, ⟨15303422609096415, 16⟩),
  (⟨24515450000000000, 10⟩, ⟨81577788075789385, 13⟩, ⟨56066674678905528, 16⟩),
  (⟨24515450000000000, 10⟩, ⟨10964631234478922, 12⟩, ⟨26979353654379779, 16⟩),
  (⟨24515450000000000, 10⟩, ⟨99807342224495951, 13⟩, ⟨52694107066512572, 16⟩),
  (⟨24515450000000000, 10⟩, ⟨27046889559259021, 13⟩, ⟨54848616213250594, 16⟩),
  (⟨24515450000000000, 10⟩, ⟨29422953729105043, 13⟩, ⟨81606954784206920, 17⟩),
  (⟨24515450000000000, 10⟩, ⟨20501984215899887, 12⟩, ⟨56162237155735184, 16⟩),
  (⟨24515450000000000, 10⟩, ⟨24648878815486420, 12⟩, ⟨89137528184426884, 17⟩),
  (⟨24515450000000000, 10⟩, ⟨34333342177561433, 12⟩, ⟨75063961390892331, 17⟩),
  (⟨24515450000000000, 10⟩, ⟨17632393747320060, 12⟩, ⟨28084721199730112, 16⟩),
  (⟨24515450000000000, 10⟩, ⟨80755194615150031, 13⟩, ⟨25621080467623685, 16⟩),
  (⟨24515450000000000, 10⟩, ⟨51050720246640531, 13⟩, ⟨52012769360663924, 16⟩),
  (⟨24515450000000000, 10⟩, ⟨22258493013223037, 12⟩, ⟨13297594946884459, 16⟩),
  (⟨24515450000000000, 10⟩, ⟨37090059875724087, 13⟩, ⟨59037162118865893, 16⟩),
  (⟨24515450000000000, 10⟩, ⟨16739264178002963, 12⟩, ⟨54801447767088547, 16⟩),
  (⟨24515450000000000, 10⟩, ⟨22300451884229158, 12⟩, ⟨17931224384745263, 16⟩),
  (⟨24515450000000000, 10⟩, ⟨33744507901486402, 12⟩, ⟨42290514015795182, 16⟩),
  (⟨24515450000000000, 10⟩, ⟨20049697305622496, 12⟩, ⟨23163779332464287, 16⟩),
  (⟨24515450000000000, 10⟩, ⟨14232799988408198, 12⟩, ⟨34292055970703075, 16⟩),
  (⟨24515450000000000, 10⟩, ⟨33465640425139296, 12⟩, ⟨26459366447722488, 17⟩),
  (⟨24515450000000000, 10⟩, ⟨14217869396945568, 13⟩, ⟨28813568577638051, 16⟩),
  (⟨24515450000000000, 10⟩, ⟨32816565464563260, 12⟩, ⟨11944690592482559, 16⟩),
  (⟨24515450000000000, 10⟩, ⟨13937233762999265, 12⟩, ⟨10703084484291523, 16⟩),
  (⟨24515450000000000, 10⟩, ⟨18464021270292895, 12⟩, ⟨22075653111588665, 16⟩),
  (⟨24515450000000000, 10⟩, ⟨98790220060942447, 13⟩, ⟨53279368636194917, 16⟩),
  (⟨24515450000000000, 10⟩, ⟨34240688489178923, 12⟩, ⟨13327342947620977, 16⟩),
  (⟨24515450000000000, 10⟩, ⟨17986488368114096, 12⟩, ⟨32110060491609858, 16⟩),
  (⟨24515450000000000, 10⟩, ⟨33778050214319352, 12⟩, ⟨19303190070039093, 16⟩),
  (⟨24515450000000000, 10⟩, ⟨34649138020507118, 12⟩, ⟨49002598093460605, 16⟩),
  (⟨24515450000000000, 10⟩, ⟨20823752499622064, 12⟩, ⟨34122378943453242, 16⟩),
  (⟨24515450000000000, 10⟩, ⟨11744426518012777, 12⟩, ⟨22594717581342323, 16⟩),
  (⟨24515450000000000, 10⟩, ⟨29302123049744911, 12⟩, ⟨79047831815163505, 17⟩),
  (⟨24515450000000000, 10⟩, ⟨10562566891222670, 12⟩, ⟨16604570368226774, 16⟩),
  (⟨24515450000000000, 10⟩, ⟨17583703568742963, 12⟩, ⟨39175603367729437, 16⟩),
  (⟨24515450000000000, 10⟩, ⟨13008140419788580, 12⟩, ⟨33509411479938080, 16⟩),
  (⟨24515450000000000, 10⟩, ⟨34563950200342144, 12⟩, ⟨22547347282862802, 16⟩),
  (⟨24515450000000000, 10⟩, ⟨21769794690891518, 12⟩, ⟨11017651971093940, 16⟩),
  (⟨24515450000000000, 10⟩, ⟨14487006020040028, 12⟩, ⟨28134530170557355, 16⟩),
  (⟨24515450000000000, 10⟩, ⟨25278313247387091, 13⟩, ⟨33370545232205018, 16⟩),
  (⟨24515450000000000, 10⟩, ⟨35874987550326106, 12⟩, ⟨61925556014797891, 16⟩),
  (⟨24515450000000000, 10⟩, ⟨21315837275595484, 12⟩, ⟨61266464203023858, 16⟩),
  (⟨24515450000000000, 10⟩, ⟨17398863364254021, 13⟩, ⟨26947025747533360, 16⟩),
  (⟨24515450000000000, 10⟩, ⟨21635412035154313, 12⟩, ⟨26689790227855212, 16⟩),
  (⟨24515450000000000, 10⟩, ⟨20688399816990182, 12⟩, ⟨51510917181670166, 16⟩),
  (⟨24515450000000000, 10⟩, ⟨35349998074058940, 13⟩, ⟨28715995220189328, 16⟩),
  (⟨24515450000000000, 10⟩, ⟨24357134105722391, 12⟩, ⟨37599515612562229, 16⟩),
  (⟨24515450000000000, 10⟩, ⟨11649183307632573, 12⟩, ⟨53761303695801530, 16⟩),
  (⟨24515450000000000, 10⟩, ⟨11467444923883966, 12⟩, ⟨38936174434952591, 16⟩),
  (⟨24515450000000000, 10⟩, ⟨22523532927426906, 12⟩, ⟨61398120327315695, 16⟩),
  (⟨24515450000000000, 10⟩, ⟨31300169399407750, 13⟩, ⟨22958437096058191, 16⟩)]

/-- Entries 800 to 899. -/
def Era_8 : List (Dec × Dec × Dec) := [
  (⟨24515450000000000, 10⟩, ⟨15433797328761004, 12⟩, ⟨52227105374965888, 16⟩),
  (⟨24515450000000000, 10⟩, ⟨32133322103433842, 12⟩, ⟨47848160916706917, 17⟩),
  (⟨24515450000000000, 10⟩, ⟨18044816848840586, 12⟩, ⟨62782883233425224, 16⟩),
  (⟨24515450000000000, 10⟩, ⟨18225891616459560, 13⟩, ⟨22501672176972605, 16⟩),
  (⟨24515450000000000, 10⟩, ⟨28132911165978432, 12⟩, ⟨44789217924429607, 16⟩),
  (⟨24515450000000000, 10⟩, ⟨11070541040609109, 12⟩, ⟨39531100716591752, 16⟩),
  (⟨24515450000000000, 10⟩, ⟨29155698863661491, 12⟩, ⟨18896087153168324, 16⟩),
  (⟨24515450000000000, 10⟩, ⟨13376716756279615, 12⟩, ⟨74611583359795475, 17⟩),
  (⟨24515450000000000, 10⟩, ⟨26268499287434115, 12⟩, ⟨12349911734089929, 16⟩),
  (⟨24515450000000000, 10⟩, ⟨44502400418274092, 13⟩, ⟨12756078550303229, 16⟩),
  (⟨24515450000000000, 10⟩, ⟨51186597645071906, 13⟩, ⟨28447087165361680, 16⟩),
  (⟨24515450000000000, 10⟩, ⟨17488129883743502, 12⟩, ⟨49521007923615343, 16⟩),
  (⟨24515450000000000, 10⟩, ⟨36846876702340628, 13⟩, ⟨34853413267492712, 16⟩),
  (⟨24515450000000000, 10⟩, ⟨12481300491074957, 12⟩, ⟨15770889486950566, 16⟩),
  (⟨24515450000000000, 10⟩, ⟨28985188978153819, 12⟩, ⟨20359472224897104, 16⟩),
  (⟨24515450000000000, 10⟩, ⟨33287220683138323, 12⟩, ⟨84125375666653213, 17⟩),
  (⟨24515450000000000, 10⟩, ⟨53115233499981105, 13⟩, ⟨53052651085377036, 16⟩),
  (⟨24515450000000000, 10⟩, ⟨87243710687391394, 13⟩, ⟨22501998856044025, 17⟩),
  (⟨24515450000000000, 10⟩, ⟨16196422840248035, 12⟩, ⟨34221801980048738, 16⟩),
  (⟨24515450000000000, 10⟩, ⟨14443768127494257, 12⟩, ⟨57494407675492454, 17⟩),
  (⟨24515450000000000, 10⟩, ⟨13525478157784710, 12⟩, ⟨18059776186507150, 16⟩),
  (⟨24515450000000000, 10⟩, ⟨30047751893582219, 12⟩, ⟨50016913310506013, 16⟩),
  (⟨24515450000000000, 10⟩, ⟨34128773081342079, 12⟩, ⟨62222388957356287, 16⟩),
  (⟨24515450000000000, 10⟩, ⟨37698556301775970, 13⟩, ⟨60057393171641777, 16⟩),
  (⟨24515450000000000, 10⟩, ⟨17602677644256248, 12⟩, ⟨40810674369986160, 16⟩),
  (⟨24515450000000000, 10⟩, ⟨12393206226125016, 12⟩, ⟨57525767422045107, 16⟩),
  (⟨24515450000000000, 10⟩, ⟨21279519545690284, 12⟩, ⟨35055464367012448, 16⟩),
  (⟨24515450000000000, 10⟩, ⟨12156986918809491, 12⟩, ⟨31114129595993489, 17⟩),
  (⟨24515450000000000, 10⟩, ⟨34686908129048650, 12⟩, ⟨41055373649613784, 16⟩),
  (⟨24515450000000000, 10⟩, ⟨19002563577606063, 12⟩, ⟨23127135181391125, 16⟩),
  (⟨24515450000000000, 10⟩, ⟨13152110885759882, 13⟩, ⟨37130259483041321, 16⟩),
  (⟨24515450000000000, 10⟩, ⟨23574685774954996, 12⟩, ⟨49560190955233452, 18⟩),
  (⟨24515450000000000, 10⟩, ⟨11331651637840258, 12⟩, ⟨28564990448182073, 16⟩),
  (⟨24515450000000000, 10⟩, ⟨12349726095033053, 12⟩, ⟨19878710966640014, 16⟩),
  (⟨24515450000000000, 10⟩, ⟨46953099991788649, 13⟩, ⟨59309002726832958, 16⟩),
  (⟨24515450000000000, 10⟩, ⟨17430941874794189, 13⟩, ⟨40558512933154987, 16⟩),
  (⟨24515450000000000, 10⟩, ⟨19377242141854567, 12⟩, ⟨45517576515929647, 17⟩),
  (⟨24515450000000000, 10⟩, ⟨14612479109943197, 12⟩, ⟨16611898628191071, 16⟩),
  (⟨24515450000000000, 10⟩, ⟨12781494874467686, 12⟩, ⟨16792482092708383, 16⟩),
  (⟨24515450000000000, 10⟩, ⟨19406518091106573, 12⟩, ⟨26926261871553692, 16⟩),
  (⟨24515450000000000, 10⟩, ⟨49429118424011385, 13⟩, ⟨14053135200101323, 16⟩),
  (⟨24515450000000000, 10⟩, ⟨22752968648673100, 13⟩, ⟨19179862915030483, 16⟩),
  (⟨24515450000000000, 10⟩, ⟨12699968011876599, 12⟩, ⟨32496184947339373, 16⟩),
  (⟨24515450000000000, 10⟩, ⟨67273189912193739, 13⟩, ⟨32432706660039017, 16⟩),
  (⟨24515450000000000, 10⟩, ⟨12386388765103555, 12⟩, ⟨49904247423042847, 17⟩),
  (⟨24515450000000000, 10⟩, ⟨35029218815192267, 12⟩, ⟨56629405640691175, 16⟩),
  (⟨24515450000000000, 10⟩, ⟨33443583981900309, 12⟩, ⟨58137167443732949, 16⟩),
  (⟨24515450000000000, 10⟩, ⟨85260715984663893, 13⟩, ⟨12153949807519098, 16⟩),
  (⟨24515450000000000, 10⟩, ⟨15205002646680654, 12⟩, ⟨25769938665354317, 16⟩),
  (⟨24515450000000000, 10⟩, ⟨26699883193878992, 12⟩, ⟨47847046245446592, 16⟩),
  (⟨24515450000000000, 10⟩, ⟨20407741572371986, 13⟩, ⟨88260096609029404, 17⟩),
  (⟨24515450000000000, 10⟩, ⟨36494471764146801, 12⟩, ⟨10418835338374564, 16⟩),
  (⟨24515450000000000, 10⟩, ⟨33483960428677019, 12⟩, ⟨25903791816194328, 16⟩),
  (⟨24515450000000000, 10⟩, ⟨20251775111842788, 12⟩, ⟨62814275441630230, 16⟩),
  (⟨24515450000000000, 10⟩, ⟨36056696543329374, 12⟩, ⟨12067101362205506, 16⟩),
  (⟨24515450000000000, 10⟩, ⟨80063180772792543, 14⟩, ⟨37877824545363872, 16⟩),
  (⟨24515450000000000, 10⟩, ⟨33248053245110561, 12⟩, ⟨53986296054940723, 16⟩),
  (⟨24515450000000000, 10⟩, ⟨33045359009648440, 12⟩, ⟨38330222200686350, 16⟩),
  (⟨24515450000000000, 10⟩, ⟨36151927289822517, 12⟩, ⟨42947095138835323, 16⟩),
  (⟨24515450000000000, 10⟩, ⟨78373370581392046, 13⟩, ⟨36019626686115060, 16⟩),
  (⟨24515450000000000, 10⟩, ⟨35886886038353448, 12⟩, ⟨57594169940921844, 16⟩),
  (⟨24515450000000000, 10⟩, ⟨62550076204149127, 13⟩, ⟨57284558006802158, 16⟩),
  (⟨24515450000000000, 10⟩, ⟨22886857912535586, 12⟩, ⟨18653647162965967, 16⟩),
  (⟨24515450000000000, 10⟩, ⟨34705138335377618, 12⟩, ⟨58655656717178530, 16⟩),
  (⟨24515450000000000, 10⟩, ⟨11244848526932074, 12⟩, ⟨26003869921283354, 16⟩),
  (⟨24515450000000000, 10⟩, ⟨30370023612855781, 12⟩, ⟨59695445581581268, 16⟩),
  (⟨24515450000000000, 10⟩, ⟨13911132091611169, 12⟩, ⟨62656679453295538, 16⟩),
  (⟨24515450000000000, 10⟩, ⟨10849642911440826, 13⟩, ⟨44847905014361800, 16⟩),
  (⟨24515450000000000, 10⟩, ⟨26535603625381013, 12⟩, ⟨20215730784572372, 17⟩),
  (⟨24515450000000000, 10⟩, ⟨29521259670093394, 12⟩, ⟨54185167791491509, 16⟩),
  (⟨24515450000000000, 10⟩, ⟨14226760119516624, 12⟩, ⟨30748030540360958, 16⟩),
  (⟨24515450000000000, 10⟩, ⟨52419675766477349, 13⟩, ⟨61672725566764086, 17⟩),
  (⟨24515450000000000, 10⟩, ⟨22123760863277832, 12⟩, ⟨69502438559014479, 17⟩),
  (⟨24515450000000000, 10⟩, ⟨32954727684379955, 12⟩, ⟨45904175438415606, 16⟩),
  (⟨24515450000000000, 10⟩, ⟨26771230450349987, 12⟩, ⟨19107243917619741, 16⟩),
  (⟨24515450000000000, 10⟩, ⟨76265070650158614, 13⟩, ⟨10434119765856593, 16⟩),
  (⟨24515450000000000, 10⟩, ⟨37851886494618329, 13⟩, ⟨20787372348610873, 16⟩),
  (⟨24515450000000000, 10⟩, ⟨11673963092777369, 12⟩, ⟨44187459408353575, 16⟩),
  (⟨24515450000000000, 10⟩, ⟨27609719618536463, 12⟩, ⟨55854407526675942, 17⟩),
  (⟨24515450000000000, 10⟩, ⟨15762054371689153, 12⟩, ⟨62013101790690754, 16⟩),
  (⟨24515450000000000, 10⟩, ⟨55156623310729256, 13⟩, ⟨34069590593686030, 16⟩),
  (⟨24515450000000000, 10⟩, ⟨34251331339581302, 12⟩, ⟨55549627215173558, 16⟩),
  (⟨24515450000000000, 10⟩, ⟨27033290180472327, 13⟩, ⟨31999113349722350, 16⟩),
  (⟨24515450000000000, 10⟩, ⟨19217578982492054, 12⟩, ⟨61082388777509848, 16⟩),
  (⟨24515450000000000, 10⟩, ⟨19127953915269976, 12⟩, ⟨63907919119581891, 17⟩),
  (⟨24515450000000000, 10⟩, ⟨11155794613781543, 12⟩, ⟨72971927095960609, 17⟩),
  (⟨24515450000000000, 10⟩, ⟨23980055899053721, 12⟩, ⟨30651828519013549, 16⟩),
  (⟨24515450000000000, 10⟩, ⟨19134771505986795, 12⟩, ⟨58934305901793849, 16⟩),
  (⟨24515450000000000, 10⟩, ⟨37247330149927457, 13⟩, ⟨44591180599544273, 16⟩),
  (⟨24515450000000000, 10⟩, ⟨29729213623521093, 12⟩, ⟨24232735756881567, 16⟩),
  (⟨24515450000000000, 10⟩, ⟨20810721404180487, 12⟩, ⟨29926962288645456, 16⟩),
  (⟨24515450000000000, 10⟩, ⟨43464534763098236, 13⟩, ⟨83130112145074264, 17⟩),
  (⟨24515450000000000, 10⟩, ⟨33647245088293756, 12⟩, ⟨90461503247542652, 17⟩),
  (⟨24515450000000000, 10⟩, ⟨13785603999330660, 12⟩, ⟨78820950245559374, 17⟩),
  (⟨24515450000000000, 10⟩, ⟨56258243904150675, 14⟩, ⟨56658071686581337, 16⟩),
  (⟨24515450000000000, 10⟩, ⟨42681749554885182, 13⟩, ⟨40179273244081486, 16⟩),
  (⟨24515450000000000, 10⟩, ⟨32478873332684037, 12⟩, ⟨36030061257104222, 16⟩),
  (⟨24515450000000000, 10⟩, ⟨23400153427623693, 12⟩, ⟨62687570944685831, 16⟩),
  (⟨24515450000000000, 10⟩, ⟨23939618938988657, 12⟩, ⟨59072632499282491, 16⟩),
  (⟨24515450000000000, 10⟩, ⟨33392601854176479, 12⟩, ⟨50490078511786294, 16⟩)]

/-- Entries 900 to 999. -/
def Era_9 : List (Dec × Dec × Dec) := [
  (⟨24515450000000000, 10⟩, ⟨35691621469990430, 12⟩, ⟨73810877316957857, 17⟩),
  (⟨24515450000000000, 10⟩, ⟨27431792796493482, 12⟩, ⟨42407909027658945, 16⟩),
  (⟨24515450000000000, 10⟩, ⟨20579401806754398, 12⟩, ⟨32885904300334019, 16⟩),
  (⟨24515450000000000, 10⟩, ⟨23633579346877341, 12⟩, ⟨39395065719499200, 17⟩),
  (⟨24515450000000000, 10⟩, ⟨28658155635593434, 12⟩, ⟨24839487583335185, 16⟩),
  (⟨24515450000000000, 10⟩, ⟨58245735692624803, 13⟩, ⟨18800134411083818, 16⟩),
  (⟨24515450000000000, 10⟩, ⟨12254697111687212, 12⟩, ⟨17105772755510174, 17⟩),
  (⟨24515450000000000, 10⟩, ⟨19806281130857038, 12⟩, ⟨17973713190471230, 16⟩),
  (⟨24515450000000000, 10⟩, ⟨26362522979002639, 12⟩, ⟨30012621153497676, 16⟩),
  (⟨24515450000000000, 10⟩, ⟨11542580410011180, 12⟩, ⟨60373960121657433, 16⟩),
  (⟨24515450000000000, 10⟩, ⟨87351485480506562, 13⟩, ⟨52954627098040987, 16⟩),
  (⟨24515450000000000, 10⟩, ⟨51340576476036549, 13⟩, ⟨56095590923196710, 16⟩),
  (⟨24515450000000000, 10⟩, ⟨25192349689223656, 13⟩, ⟨57253496708542500, 16⟩),
  (⟨24515450000000000, 10⟩, ⟨65062835833925774, 13⟩, ⟨55016912581729400, 16⟩),
  (⟨24515450000000000, 10⟩, ⟨25081224599819463, 12⟩, ⟨42181068361925966, 16⟩),
  (⟨24515450000000000, 10⟩, ⟨16718017405199327, 12⟩, ⟨35641347215329091, 16⟩),
  (⟨24515450000000000, 10⟩, ⟨34218575023736586, 12⟩, ⟨23941009102920674, 17⟩),
  (⟨24515450000000000, 10⟩, ⟨33201244289312497, 12⟩, ⟨57937796647532807, 16⟩),
  (⟨24515450000000000, 10⟩, ⟨68081964381225071, 13⟩, ⟨38645152136360323, 16⟩),
  (⟨24515450000000000, 10⟩, ⟨36506421797599935, 12⟩, ⟨93350108210371019, 17⟩),
  (⟨24515450000000000, 10⟩, ⟨12704723491479904, 13⟩, ⟨45849707060427889, 16⟩),
  (⟨24515450000000000, 10⟩, ⟨21030139163800930, 12⟩, ⟨31088357337717554, 16⟩),
  (⟨24515450000000000, 10⟩, ⟨18913914093078176, 12⟩, ⟨29901028303592128, 16⟩),
  (⟨24515450000000000, 10⟩, ⟨32308943296887478, 13⟩, ⟨32607717490851229, 16⟩),
  (⟨24515450000000000, 10⟩, ⟨23500484312021490, 12⟩, ⟨37904896642590771, 16⟩),
  (⟨24515450000000000, 10⟩, ⟨10697462211615131, 12⟩, ⟨33232291900243780, 16⟩),
  (⟨24515450000000000, 10⟩, ⟨33208134003538007, 13⟩, ⟨42990817416450540, 16⟩),
  (⟨24515450000000000, 10⟩, ⟨56700855263471922, 13⟩, ⟨24392036172197180, 16⟩),
  (⟨24515450000000000, 10⟩, ⟨15623338355203870, 12⟩, ⟨55994134006776264, 16⟩),
  (⟨24515450000000000, 10⟩, ⟨44856363501750720, 13⟩, ⟨43745802946753614, 16⟩),
  (⟨24515450000000000, 10⟩, ⟨13797499585088913, 13⟩, ⟨19258695161907795, 16⟩),
  (⟨24515450000000000, 10⟩, ⟨16877047318995534, 12⟩, ⟨20456447411802259, 17⟩),
  (⟨24515450000000000, 10⟩, ⟨46417618222894625, 13⟩, ⟨15654579406764100, 16⟩),
  (⟨24515450000000000, 10⟩, ⟨11273564393478653, 12⟩, ⟨13090993453114095, 16⟩),
  (⟨24515450000000000, 10⟩, ⟨32826356588040951, 12⟩, ⟨50487827569092758, 18⟩),
  (⟨24515450000000000, 10⟩, ⟨32646389088882548, 12⟩, ⟨34420487069092047, 16⟩),
  (⟨24515450000000000, 10⟩, ⟨23279744899564284, 12⟩, ⟨16306104719560963, 16⟩),
  (⟨24515450000000000, 10⟩, ⟨30913274630698426, 12⟩, ⟨43254671279123684, 16⟩),
  (⟨24515450000000000, 10⟩, ⟨20192847317325617, 12⟩, ⟨57214214697164607, 16⟩),
  (⟨24515450000000000, 10⟩, ⟨16327709944527869, 12⟩, ⟨12013486272435756, 16⟩),
  (⟨24515450000000000, 10⟩, ⟨26119383881909562, 12⟩, ⟨42279522010788924, 16⟩),
  (⟨24515450000000000, 10⟩, ⟨32047558420583926, 12⟩, ⟨48798378098948803, 17⟩),
  (⟨24515450000000000, 10⟩, ⟨36139124442377615, 12⟩, ⟨53132186705266164, 16⟩),
  (⟨24515450000000000, 10⟩, ⟨10268315359954620, 12⟩, ⟨13014570951320721, 16⟩),
  (⟨24515450000000000, 10⟩, ⟨17008124671868401, 12⟩, ⟨29454030707556385, 16⟩),
  (⟨24515450000000000, 10⟩, ⟨30900723411959203, 12⟩, ⟨64614932594234631, 17⟩),
  (⟨24515450000000000, 10⟩, ⟨19378076603245452, 12⟩, ⟨57126058704701066, 16⟩),
  (⟨24515450000000000, 10⟩, ⟨27065414484861508, 13⟩, ⟨45899119528633392, 16⟩),
  (⟨24515450000000000, 10⟩, ⟨18319162654075462, 12⟩, ⟨60402188726731509, 17⟩),
  (⟨24515450000000000, 10⟩, ⟨18397684878696680, 12⟩, ⟨52360093629329114, 16⟩),
  (⟨24515450000000000, 10⟩, ⟨49733044755808141, 13⟩, ⟨43951200793804333, 16⟩),
  (⟨24515450000000000, 10⟩, ⟨28909087221197104, 12⟩, ⟨87473317989349653, 18⟩),
  (⟨24515450000000000, 10⟩, ⟨17664741565236349, 12⟩, ⟨55503295138338231, 16⟩),
  (⟨24515450000000000, 10⟩, ⟨10065628729219719, 12⟩, ⟨60669477451006628, 16⟩),
  (⟨24515450000000000, 10⟩, ⟨55530310778877247, 13⟩, ⟨83502214214135506, 18⟩),
  (⟨24515450000000000, 10⟩, ⟨32148706903021335, 12⟩, ⟨31609008087452040, 16⟩),
  (⟨24515450000000000, 10⟩, ⟨50196663070703389, 13⟩, ⟨11829136215778036, 16⟩),
  (⟨24515450000000000, 10⟩, ⟨11760163769060928, 13⟩, ⟨95164018810706352, 18⟩),
  (⟨24515450000000000, 10⟩, ⟨22025660268028721, 12⟩, ⟨46586070456731434, 16⟩),
  (⟨24515450000000000, 10⟩, ⟨35162102401252037, 13⟩, ⟨38705657816317114, 16⟩),
  (⟨24515450000000000, 10⟩, ⟨17963798806208491, 12⟩, ⟨47712362042690444, 16⟩),
  (⟨24515450000000000, 10⟩, ⟨12601177440307458, 12⟩, ⟨28660829819375166, 16⟩),
  (⟨24515450000000000, 10⟩, ⟨87575959763271985, 13⟩, ⟨22096968680270734, 16⟩),
  (⟨24515450000000000, 10⟩, ⟨26149723475935458, 12⟩, ⟨60040623248895741, 17⟩),
  (⟨24515450000000000, 10⟩, ⟨33082513617376128, 12⟩, ⟨54435914572280737, 16⟩),
  (⟨24515450000000000, 10⟩, ⟨11899569576973430, 12⟩, ⟨58271364778660555, 16⟩),
  (⟨24515450000000000, 10⟩, ⟨32309248133859746, 12⟩, ⟨30400282353760204, 16⟩),
  (⟨24515450000000000, 10⟩, ⟨34255471380086077, 12⟩, ⟨22289557656360870, 17⟩),
  (⟨24515450000000000, 10⟩, ⟨16035101114446254, 12⟩, ⟨49088173778617090, 16⟩),
  (⟨24515450000000000, 10⟩, ⟨11602462523744867, 12⟩, ⟨43612322363493661, 18⟩),
  (⟨24515450000000000, 10⟩, ⟨25942281095359896, 12⟩, ⟨53557132494262305, 17⟩),
  (⟨24515450000000000, 10⟩, ⟨23774972775520397, 12⟩, ⟨52982108769441112, 16⟩),
  (⟨24515450000000000, 10⟩, ⟨98459795886977940, 14⟩, ⟨45653726689745966, 17⟩),
  (⟨24515450000000000, 10⟩, ⟨87314006493596680, 13⟩, ⟨53180461701584392, 17⟩),
  (⟨24515450000000000, 10⟩, ⟨16768383783781355, 12⟩, ⟨44938542674045578, 17⟩),
  (⟨24515450000000000, 10⟩, ⟨29999621702910830, 12⟩, ⟨33557350345284291, 16⟩),
  (⟨24515450000000000, 10⟩, ⟨19592096096174500, 12⟩, ⟨32334999986486395, 16⟩),
  (⟨24515450000000000, 10⟩, ⟨33601583340774312, 12⟩, ⟨22444364678764899, 16⟩),
  (⟨24515450000000000, 10⟩, ⟨31230282151453332, 12⟩, ⟨35427564161810636, 16⟩),
  (⟨24515450000000000, 10⟩, ⟨15322033999234784, 12⟩, ⟨47871821165550301, 16⟩),
  (⟨24515450000000000, 10⟩, ⟨10664414773124834, 12⟩, ⟨24566763933818123, 16⟩),
  (⟨24515450000000000, 10⟩, ⟨89735919719612684, 13⟩, ⟨59001385992814122, 16⟩),
  (⟨24515450000000000, 10⟩, ⟨26313358196560494, 12⟩, ⟨11201620796341913, 16⟩),
  (⟨24515450000000000, 10⟩, ⟨14796816252132510, 12⟩, ⟨66733202829199456, 17⟩),
  (⟨24515450000000000, 10⟩, ⟨22908334025873690, 12⟩, ⟨52263090050408536, 16⟩),
  (⟨24515450000000000, 10⟩, ⟨18938391399319386, 12⟩, ⟨12698410245236147, 17⟩),
  (⟨24515450000000000, 10⟩, ⟨87943956227085655, 13⟩, ⟨15838720805495612, 16⟩),
  (⟨24515450000000000, 10⟩, ⟨23246100001179977, 12⟩, ⟨32830141424335011, 16⟩),
  (⟨24515450000000000, 10⟩, ⟨19223789927430891, 12⟩, ⟨12573015010670332, 16⟩),
  (⟨24515450000000000, 10⟩, ⟨18910251499855738, 12⟩, ⟨50470875513569524, 16⟩),
  (⟨24515450000000000, 10⟩, ⟨11663914913425724, 12⟩, ⟨39431755608609720, 16⟩),
  (⟨24515450000000000, 10⟩, ⟨39900891382148498, 13⟩, ⟨49782246325018420, 16⟩),
  (⟨24515450000000000, 10⟩, ⟨35475578814703775, 12⟩, ⟨30368784578073047, 16⟩),
  (⟨24515450000000000, 10⟩, ⟨89113254468402665, 13⟩, ⟨31543919283500728, 16⟩),
  (⟨24515450000000000, 10⟩, ⟨98750297820502419, 13⟩, ⟨53081196811808624, 16⟩),
  (⟨24515450000000000, 10⟩, ⟨89634618696651378, 13⟩, ⟨49084219249893764, 16⟩),
  (⟨24515450000000000, 10⟩, ⟨30508588134792732, 12⟩, ⟨56169669799253654, 16⟩),
  (⟨24515450000000000, 10⟩, ⟨68093999106434949, 13⟩, ⟨51636731183413573, 16⟩),
  (⟨24515450000000000, 10⟩, ⟨85941308215580409, 14⟩, ⟨34246551918491619, 16⟩),
  (⟨24515450000000000, 10⟩, ⟨14379439703771395, 12⟩, ⟨36879931772472219, 16⟩)]

/-- `ERA00_DATA`. -/
def ERA00_DATA : List (Dec × Dec × Dec) :=
  Era_0 ++ Era_1 ++ Era_2 ++ Era_3 ++ Era_4 ++ Era_5 ++ Era_6 ++ Era_7 ++ Era_8 ++ Era_9

end Verif.TestData
