import Verif.Model.Epv.Table

/-!
# Reference ephemeris data

The `DATA` statements of `/repo/fortran/epv00.for` (lines 68-2257), one list per series and axis; a line
`r a i b j c k` is the triple `a*10^-i, b*10^-j, c*10^-k` (amplitude, phase, frequency).
Generated by `tools/gen_epvref.py`.
-/

namespace Verif.EpvRef
open Epv

@[reducible] def r (a : ℤ) (i : ℕ) (b : ℤ) (j : ℕ) (c : ℤ) (k : ℕ) : Dec × Dec × Dec := (⟨a, i⟩, ⟨b, j⟩, ⟨c, k⟩)

/-- `E0(·,·,1)`: 501 terms. -/
def E0X : List (Dec × Dec × Dec) := [
  r 9998292878132 13 1753485171504 12 6283075850446 12,
  r 8352579567414 15 1710344404582 12 1256615170089 11,
  r 5611445335148 15 0 13 0 13,
  r 1046664295572 16 1667225416770 12 1884922755134 11,
  r 3110842534677 17 6687513390251 13 8399684731857 11,
  r 2552413503550 17 5830637358413 13 5296909721118 13,
  r 2137207845781 17 1092330954011 12 1577343543434 12,
  r 1680240182951 17 4955366134987 13 6279552690824 12,
  r 1679012370795 17 6153014091901 12 6286599010068 12,
  r 1445526946777 17 3472744100492 12 2352866153506 12,
  r 1091038246184 17 3689845786119 12 5223693906222 12,
  r 9344399733932 18 6073934645672 12 1203646072878 11,
  r 8993182910652 18 3175705249069 12 1021328554739 11,
  r 5665546034116 18 2152484672246 12 1059381944224 12,
  r 6844146703035 18 1306964099750 12 5753384878334 12,
  r 7346610905565 18 4354980070466 12 3981490189893 13,
  r 6815396474414 18 2218229211267 12 4705732307012 12,
  r 6112787253053 18 5384788425458 12 6812766822558 12,
  r 4518120711239 18 6087604012291 12 5884926831456 12,
  r 4521963430706 18 1279424524906 12 6256777527156 12,
  r 4497426764085 18 5369129144266 12 6309374173736 12,
  r 4062190566959 18 5436473303367 13 6681224869435 12,
  r 5412193480192 18 7867838528395 13 7755226100720 13,
  r 5469839049386 18 1461440311134 12 1414349524433 11,
  r 5205264083477 18 4432944696116 12 7860419393880 12,
  r 2149759935455 18 4502237496846 12 1150676975667 11,
  r 2279109618501 18 1239441308815 12 7058598460518 12,
  r 2259282939683 18 3272430985331 12 4694002934110 12,
  r 2558950271319 18 2265471086404 12 1216800268190 11,
  r 2561581447555 18 1454740653245 12 7099330490126 13,
  r 1781441115440 18 2962068630206 12 7962980379786 13,
  r 1612005874644 18 1473255041006 12 5486777812467 12,
  r 1818630667105 18 3743903293447 13 6283008715021 12,
  r 1818601377529 18 6274174354554 12 6283142985870 12,
  r 1554475925257 18 1624110906816 12 2513230340178 11,
  r 2090948029241 18 5852052276256 12 1179062909082 11,
  r 2000176345460 18 4072093298513 12 1778984560711 11,
  r 1289535917759 18 5217019331069 12 7079373888424 12,
  r 1281135307881 18 4802054538934 12 3738761453707 12,
  r 1518229005692 18 8691914742502 13 2132990797783 13,
  r 9450128579027 19 4601859529950 12 1097707878456 11,
  r 7781119494996 19 1844352816694 12 8827390247185 12,
  r 7733407759912 19 3582790154750 12 5507553240374 12,
  r 7350644318120 19 2695277788230 12 1589072916335 12,
  r 6535928827023 19 3651327986142 12 1176985366291 11,
  r 6324624183656 19 2241302375862 12 6262300422539 12,
  r 6298565300557 19 4407122406081 12 6303851278352 12,
  r 8587037089179 19 3024307223119 12 1672837615881 10,
  r 8299954491035 19 6192539428237 12 3340612434717 12,
  r 6311263503401 19 2014758795416 12 7113454667900 15,
  r 6005646745452 19 3399500503397 12 4136910472696 12,
  r 7917715109929 19 2493386877837 12 6069776770667 12,
  r 7556958099685 19 4159491740143 12 6496374930224 12,
  r 6773228244949 19 4034162934230 12 9437762937313 12,
  r 5370708577847 19 1562219163734 12 1194447056968 12,
  r 5710804266203 19 2662730803386 12 6282095334605 12,
  r 5709824583726 19 3985828430833 12 6284056366286 12,
  r 5143950896447 19 1308144688689 12 6290189305114 12,
  r 5088010604546 19 5352817214804 12 6275962395778 12,
  r 4960369085172 19 2644267922349 12 6127655567643 12,
  r 4803137891183 19 4008844192080 12 6438496133249 12,
  r 5731747768225 19 3794550174597 12 3154687086868 12,
  r 4735947960579 19 6107118308982 12 3128388763578 12,
  r 4808348796625 19 4771458618163 12 8018209333619 13,
  r 4115073743137 19 3327111335159 12 8429241228195 12,
  r 5230575889287 19 5305708551694 12 1336797263425 11,
  r 5133977889215 19 5784230738814 12 1235285262111 11,
  r 5065815825327 19 2052064793679 12 1185621865188 11,
  r 4339831593868 19 3644994195830 12 1726015463500 11,
  r 3952928638953 19 4930376436758 12 5481254917084 12,
  r 4898498111942 19 4542084219731 13 9225539266174 12,
  r 4757490209328 19 3161126388878 12 5856477690889 12,
  r 4727701669749 19 6214993845446 13 2544314396739 12,
  r 3800966681863 19 3040132339297 12 4265981595566 13,
  r 3257301077939 19 8064977360087 13 3930209696940 12,
  r 3255810528674 19 1974147981034 12 2146165377750 12,
  r 3252029748187 19 2845924913135 12 4164311961999 12,
  r 3255505635308 19 3017900824120 12 5088628793478 12,
  r 2801345211990 19 6109717793179 12 1256967486051 11,
  r 3688987740970 19 2911550235289 12 1807370494127 11,
  r 2475153429458 19 2179146025856 12 2629832328990 14,
  r 3033457749150 19 1994161050744 12 4535059491685 12,
  r 2186743763110 19 5125687237936 12 1137170464392 11,
  r 2764777032774 19 4822646860252 13 1256262854127 11,
  r 2199028768592 19 4637633293831 12 1255903824622 11,
  r 2046482824760 19 1467038733093 12 7084896783808 12,
  r 2611209147507 19 3044718783485 13 7143069561767 11,
  r 2286079656818 19 4764220356805 12 8031092209206 12,
  r 1855071202587 19 3383637774428 12 1748016358760 12,
  r 2324669506784 19 6189088449251 12 1831953657923 11,
  r 1709528015688 19 5874966729774 13 4933208510675 12,
  r 2168156875828 19 4302994009132 12 1044738781244 11,
  r 2106675556535 19 3800475419891 12 7477522907414 12,
  r 1430213830465 19 1294660846502 12 2942463415728 12,
  r 1388396901944 19 4594797202114 12 8635942003952 12,
  r 1922258844190 19 4943044543591 13 1729818233119 11,
  r 1888460058292 19 2426943912028 12 1561374759853 10,
  r 1789449386107 19 1582973303499 13 1592596075957 12,
  r 1360803685374 19 5197240440504 12 1309584267300 11,
  r 1504038014709 19 3120360916217 12 1649636139783 11,
  r 1382769533389 19 6164702888205 12 7632943190217 12,
  r 1438059769079 19 1437423770979 12 2042657109477 11,
  r 1326303260037 19 3609688799679 12 1213955354133 11,
  r 1159244950540 19 5463018167225 12 5331357529664 12,
  r 1433118149136 19 6028909912097 12 7342457794669 12,
  r 1234623148594 19 3109645574997 12 6279485555400 12,
  r 1233949875344 19 3539359332866 12 6286666145492 12,
  r 9927196061299 20 1259321569772 12 7234794171227 12,
  r 1242302191316 19 1065949392609 12 1511046609763 11,
  r 1098402195201 19 2192508743837 12 1098880815746 11,
  r 1158191395315 19 4054411278650 12 5729506548653 12,
  r 9048475596241 20 5429764748518 12 9623688285163 12,
  r 8889853269023 20 5046586206575 12 6148010737701 12,
  r 1048694242164 19 2628858030806 12 6836645152238 12,
  r 1112308378646 19 4177292719907 12 1572083878776 11,
  r 8631729709901 20 1601345232557 12 6418140963190 12,
  r 8527816951664 20 2463888997513 12 1471231707864 11,
  r 7892139456991 20 3154022088718 12 2118763888447 12,
  r 1051782905236 19 4795035816088 12 1349867339771 12,
  r 1048219943164 19 2952983395230 12 5999216516294 12,
  r 7435760775143 20 5420547991464 12 6040347114260 12,
  r 9869574106949 20 3695646753667 12 6566935184597 12,
  r 9156886364226 20 3922675306609 12 5643178611111 12,
  r 7006834356188 20 1233968624861 12 6525804586632 12,
  r 9806170182601 20 1919542280684 12 2122839202813 11,
  r 9052289673607 20 4615902724369 12 4690479774488 12,
  r 7554200867893 20 1236863719072 12 1253985337760 11,
  r 8215741286498 20 3286800101559 13 1097355562493 11,
  r 7185178575397 20 5880942158367 12 6245048154254 12,
  r 7130726476180 20 7674871987661 13 6321103546637 12,
  r 6650894461162 20 6987129150116 13 5327476111629 12,
  r 7396888823688 20 3576824794443 12 5368044267797 13,
  r 7420588884775 20 5033615245369 12 2354323048545 11,
  r 6141181642908 20 9449927045673 13 1296430071988 11,
  r 6373557924058 20 6206342280341 12 9517183207817 13,
  r 6359474329261 20 5036079095757 12 1990745094947 12,
  r 5740173582646 20 6105106371350 12 9555997388169 13,
  r 7019864084602 20 7237747359018 13 5225775174439 13,
  r 6398054487042 20 3976367969666 12 2407292145756 11,
  r 7797092650498 20 4305423910623 12 2200391463820 11,
  r 6466760000900 20 3500136825200 12 5230807360890 12,
  r 7529417043890 20 3514779246100 12 1842262939178 11,
  r 6924571140892 20 2743457928679 12 1554202828031 13,
  r 6220798650222 20 2242598118209 12 1845107853235 11,
  r 5870209391853 20 2332832707527 12 6398972393349 13,
  r 6263953473888 20 2191105358956 12 6277552955062 12,
  r 6257781390012 20 4457559396698 12 6288598745829 12,
  r 5697304945123 20 3499234761404 12 1551045220144 12,
  r 6335438746791 20 6441691079251 13 5216580451554 12,
  r 6377258441152 20 2252599151092 12 5650292065779 12,
  r 6484841818165 20 1992812417646 12 1030928125552 13,
  r 4735551485250 20 3744672082942 12 1431416805965 11,
  r 4628595996170 20 1334226211745 12 5535693017924 13,
  r 6258152336933 20 4395836159154 12 2608790314060 11,
  r 6196171366594 20 2587043007997 12 8467247584405 11,
  r 6159556952126 20 4782499769128 12 2394243902548 10,
  r 4987741172394 20 7312257619924 13 7771377146812 11,
  r 5459280703142 20 3001376372532 12 6179983037890 12,
  r 4863461189999 20 3767222128541 12 9027992316901 11,
  r 5349912093158 20 3663594450273 12 6386168663001 12,
  r 5673725607806 20 4331187919049 12 6915859635113 12,
  r 4745485060512 20 5816195745518 12 6282970628506 12,
  r 4745379005326 20 8323672435672 13 6283181072386 12,
  r 4049002796321 20 3785023976293 12 6254626709878 12,
  r 4247084014515 20 2378220728783 12 7875671926403 12,
  r 4026912363055 20 2864103423269 12 6311524991013 12,
  r 4062935011774 20 2415408595975 12 3634620989887 12,
  r 5347771048509 20 3343479309801 12 2515860172507 11,
  r 4829494136505 20 2821742398262 12 5760498333002 12,
  r 4342554404599 20 5624662458712 12 7238675589263 12,
  r 4021599184361 20 5557250275009 13 1101510648075 11,
  r 4104900474558 20 3296691780005 12 6709674010002 12,
  r 4376532905131 20 3814443999443 12 6805653367890 12,
  r 3314590480650 20 3560229189250 12 1259245002418 11,
  r 3232421839643 20 5185389180568 12 1066495398892 12,
  r 3541176318876 20 3921381909679 12 9917696840332 12,
  r 3689831242681 20 4190658955386 12 1192625446156 11,
  r 3890605376774 20 5546023371097 12 7478166569050 14,
  r 3038559339780 20 6231032794494 12 1256621883632 11,
  r 3137083969782 20 6207063419190 12 4292330755499 12,
  r 4024004081854 20 1195257375713 12 1334167431096 11,
  r 3300234879283 20 1804694240998 12 1057540660594 11,
  r 3635399155575 20 5597811343500 12 6208294184755 12,
  r 3032668691356 20 3191059366530 12 1805292951336 11,
  r 2809652069058 20 4094348032570 12 3523159621801 15,
  r 3696955383823 20 5219282738794 12 5966683958112 12,
  r 3562894142503 20 1037247544554 12 6357857516136 12,
  r 3510598524148 20 1430020816116 12 6599467742779 12,
  r 3617736142953 20 3002911403677 12 6019991944201 12,
  r 2624524910730 20 2437046757292 12 6702560555334 12,
  r 2535824204490 20 1581594689647 12 3141537925223 11,
  r 3519787226257 20 5379863121521 12 2505706758577 10,
  r 2578406709982 20 4904222639329 12 1673046366289 11,
  r 3423887981473 20 3646448997315 12 6546159756691 12,
  r 2776083886467 20 3307829300144 12 1272157198369 11,
  r 3379592818379 20 1747541251125 12 1494531617769 11,
  r 3050255426284 20 1784689432607 14 4732030630302 12,
  r 2652378350236 20 4420055276260 12 5863591145557 12,
  r 2374498173768 20 3629773929208 12 2388894113936 12,
  r 2716451255140 20 3079623706780 12 1202934727411 11,
  r 3038583699229 20 3312487903507 13 1256608456547 11,
  r 2220681228760 20 5265520401774 12 1336244973887 11,
  r 3044156540912 20 4766664081250 12 2908881142201 11,
  r 2731859923561 20 5069146530691 12 1391601904066 11,
  r 2285603018171 20 5954935112271 12 6076890225335 12,
  r 2025006454555 20 4061789589267 12 4701116388778 12,
  r 2012597519804 20 2485047705241 12 6262720680387 12,
  r 2003406962258 20 4163779209320 12 6303431020504 12,
  r 2207863441371 20 6923839133828 13 6489261475556 12,
  r 2481374305624 20 5944173595676 12 1204357418345 11,
  r 2130923288870 20 4641013671967 12 5746271423666 12,
  r 2446370543391 20 6125796518757 12 1495633313810 13,
  r 1932492759052 20 2234572324504 13 1352175143971 11,
  r 2600122568049 20 4281012405440 12 4590910121555 12,
  r 2431754047488 20 1429943874870 13 1162474756779 12,
  r 1875902869209 20 9781803816948 13 6279194432410 12,
  r 1874381139426 20 5670368130173 12 6286957268481 12,
  r 2156696047173 20 2008985006833 12 1813929450232 11,
  r 1965076182484 20 2566186202453 13 4686889479442 12,
  r 2334816372359 20 4408121891493 12 1002183730415 11,
  r 1869937408802 20 5272745038656 12 2427287361862 13,
  r 2436236460883 20 4407720479029 12 9514313292143 11,
  r 1761365216611 20 1943892315074 13 1351787002167 11,
  r 2156289480503 20 1418570924545 12 6037244212485 12,
  r 2164748979255 20 4724603439430 12 2301353951334 11,
  r 2222286670853 20 2400266874598 12 1266924451345 11,
  r 2070901414929 20 5230348028732 12 6528907488406 12,
  r 1792745177020 20 2099190328945 12 6819880277225 12,
  r 1841802068445 20 3467527844848 13 6514761976723 11,
  r 1578401631718 20 7098642356340 13 2077542790660 14,
  r 1561690152531 20 5943349620372 12 6272439236156 12,
  r 1558591045463 20 7040653478980 13 6293712464735 12,
  r 1737356469576 20 4487064760345 12 1765478049437 11,
  r 1434755619991 20 2993391570995 12 1102062672231 13,
  r 1482187806654 20 2278049198251 12 1052268489556 12,
  r 1424812827089 20 1682114725827 12 1311972100268 11,
  r 1380282448623 20 3262668602579 12 1017725758696 11,
  r 1811481244566 20 3187771221777 12 1887552587463 11,
  r 1504446185696 20 5650162308647 12 7626583626240 14,
  r 1740776154137 20 5487068607507 12 1965104848470 11,
  r 1374339536251 20 5745688172201 12 6016468784579 12,
  r 1761377477704 20 5748060203659 12 2593412433514 11,
  r 1535138225795 20 6226848505790 12 9411464614024 12,
  r 1788140543676 20 6189318878563 12 3301902111895 11,
  r 1375002807996 20 5371812884394 12 6327837846670 13,
  r 1242115758632 20 1471687569712 12 3894181736510 12,
  r 1450977333938 20 4143836662127 12 1277945078067 11,
  r 1297579575023 20 9003477661957 13 6549682916313 12,
  r 1462667934821 20 5760505536428 12 1863592847156 11,
  r 1381774374799 20 1085471729463 12 2379164476796 12,
  r 1682333169307 20 5409870870133 12 1620077269078 11,
  r 1190812918837 20 1397205174601 12 1149965630200 11,
  r 1221434762106 20 9001804809095 13 1257326515556 11,
  r 1549934644860 20 4262528275544 12 1820933031200 11,
  r 1252138953050 20 1411642012027 12 6993008899458 12,
  r 1237078905387 20 2844472403615 12 2435678079171 11,
  r 1446953389615 20 5295835522223 12 3813291813120 14,
  r 1388446457170 20 4969428135497 12 2458316379602 13,
  r 1019339179228 20 2491369561806 12 6112403035119 12,
  r 1258880815343 20 4679426248976 12 5429879531333 12,
  r 1297768238261 20 1074509953328 12 1249137003520 11,
  r 9913505718094 21 4735097918224 12 6247047890016 12,
  r 9830453155969 21 4158649187338 12 6453748665772 12,
  r 1192615865309 20 3438208613699 12 6290122169689 12,
  r 9835874798277 21 1913300781229 12 6319103810876 12,
  r 9639087569277 21 9487683644125 13 8273820945392 12,
  r 1175716107001 20 3228141664287 12 6276029531202 12,
  r 1018926508678 20 2216607854300 12 1254537627298 11,
  r 9500087869225 21 2625116459733 12 1256517118505 11,
  r 9664192916575 21 5860562449214 12 6259197520765 12,
  r 9612858712203 21 7885682917381 13 6306954180126 12,
  r 1117645675413 20 3932148831189 12 1779695906178 11,
  r 1158864052160 20 9995605521691 13 1778273215245 11,
  r 9021043467028 21 5263769742673 12 6172869583223 12,
  r 8836134773563 21 1496843220365 12 1692165728891 12,
  r 1045872200691 20 7009039517214 13 2204125344462 13,
  r 1211463487798 20 4041544938511 12 8257698122054 11,
  r 8541990804094 21 1447586692316 12 6393282117669 12,
  r 1038720703636 20 4594249718112 13 1550861511662 11,
  r 1126722351445 20 3925550579036 12 2061856251104 13,
  r 8697373859631 21 4411341856037 12 9491756770005 13,
  r 8869380028441 21 2402659724813 12 3903911373650 12,
  r 9247014693258 21 1401579743423 12 6267823317922 12,
  r 9205062930950 21 5245978000814 12 6298328382969 12,
  r 8000745038049 21 3590803356945 12 2648454860559 12,
  r 9168973650819 21 2470150501679 12 1498544001348 10,
  r 1075444949238 20 1328606161230 12 3694923081589 11,
  r 7817298525817 21 6162256225998 12 4804209201333 12,
  r 9541469226356 21 3942568967039 12 1256713221673 11,
  r 9821910122027 21 2360246287233 13 1140367694411 11,
  r 9897822023777 21 4619805634280 12 2280573557157 11,
  r 7737289283765 21 3784727847451 12 7834121070590 12,
  r 9260204034710 21 2223352487601 12 2787043132925 12,
  r 7320252888486 21 1288694636874 12 6282655592598 12,
  r 7319785780946 21 5359869567774 12 6283496108294 12,
  r 7147219933778 21 5516616675856 12 1725663147538 11,
  r 7946502829878 21 2630459984567 12 1241073141809 11,
  r 9001711808932 21 2849815827227 12 6281591679874 12,
  r 8994041507257 21 3795244450750 12 6284560021018 12,
  r 8298582787358 21 5236413127363 13 1241658836951 11,
  r 8526596520710 21 4794605424426 12 1098419223922 11,
  r 8209822103197 21 1578752370328 12 1096996532989 11,
  r 6357049861094 21 5708926113761 12 1596186371003 12,
  r 7370473179049 21 3842402530241 12 4061219149443 12,
  r 7232154664726 21 3067548981535 12 1610006857377 10,
  r 6328765494903 21 1313930030069 12 1193336791622 11,
  r 8030064908595 21 3488500408886 12 8460828644453 13,
  r 6275464259232 21 1532061626198 12 8531963191132 13,
  r 7051897446325 21 3285859929993 12 5849364236221 12,
  r 6161593705428 21 1477341999464 12 5573142801433 12,
  r 7754683957278 21 1586118663096 12 8662240327241 12,
  r 5889928990701 21 1304887868803 12 1232342296471 11,
  r 5705756047075 21 4555333589350 12 1258692712880 11,
  r 5964178808332 21 3001762842062 12 5333900173445 12,
  r 6712446027467 21 4886780007595 12 1171295538178 11,
  r 5941809275464 21 4701509603824 12 9779108567966 12,
  r 5466993627395 21 4588357817278 12 1884211409667 11,
  r 6340512090980 21 1164543038893 12 5217580628120 11,
  r 6325505710045 21 3919171259645 12 1041998632314 11,
  r 6164789509685 21 2143828253542 12 6151533897323 12,
  r 5263330812430 21 6066564434241 12 1885275071096 11,
  r 5597087780221 21 2926316429472 12 4337116142245 13,
  r 5396556236817 21 3244303591505 12 6286362197481 12,
  r 5396615148223 21 3404304703662 12 6279789503410 12,
  r 7091832443341 21 8532377803192 13 4907302013889 12,
  r 6572352589782 21 4901966774419 12 1176433076753 11,
  r 5960236060795 21 1874672315797 12 1422690933580 14,
  r 5125480043511 21 3735726064334 12 1245594543367 11,
  r 5928241866410 21 4502033899935 12 6414617803568 12,
  r 5249600357424 21 4372334799878 12 1151388321134 11,
  r 6059171276087 21 2581617302908 12 6062663316000 12,
  r 5295235081662 21 2974811513158 12 3496032717521 12,
  r 5820561875933 21 1796073748244 13 2838593341516 13,
  r 4754696606440 21 1981998136973 12 3104930017775 12,
  r 6385053548955 21 2559174171605 13 6133512519065 12,
  r 6589828273941 21 2750967106776 12 4087944051283 11,
  r 5383376567189 21 6325947523578 13 2248384854122 11,
  r 5928941683538 21 1672304519067 12 1581959461667 12,
  r 4816060709794 21 3512566172575 12 9388005868221 12,
  r 6003381586512 21 5610932219189 12 5326786718777 12,
  r 5504225393105 21 4037501131256 12 6503488384892 12,
  r 5353772620129 21 6122774968240 12 1735668374386 10,
  r 5786253768544 21 5527984999515 12 1350651127443 13,
  r 5065706702002 21 9980765573624 13 1248988586463 11,
  r 5972838885276 21 6044489493203 12 2673594526851 11,
  r 5323585877961 21 3924265998147 12 4171425416666 12,
  r 5210772682858 21 6220111376901 12 2460261242967 11,
  r 4726549040535 21 3716043206862 12 7232251527446 12,
  r 6029425105059 21 8548704071116 13 3227113045244 10,
  r 4481542826513 21 1426925072829 12 5547199253223 12,
  r 5836024505068 21 7135651752625 14 7285056171570 11,
  r 4137046613272 21 5330767643283 12 1087398597200 11,
  r 5171977473924 21 4494262335353 13 1884570439172 11,
  r 5694429833732 21 2952369582215 12 9723862754494 11,
  r 4009158925298 21 3500003416535 12 6244942932314 12,
  r 4784939596873 21 6196709413181 12 2929661536378 11,
  r 3983725022610 21 5103690031897 12 4274518229222 12,
  r 3870535232462 21 3187569587401 12 6321208768577 12,
  r 5140501213951 21 1668924357457 12 1232032006293 11,
  r 3849034819355 21 4445722510309 12 1726726808967 11,
  r 4002383075060 21 5226224152423 12 7018952447668 12,
  r 3890719543549 21 4371166550274 12 1491901785440 11,
  r 4887084607881 21 5973556689693 12 1478866649112 12,
  r 3739939287592 21 2089084714600 12 6922973089781 12,
  r 5031925918209 21 4658371936827 12 1715706182245 11,
  r 4387748764954 21 4825580552819 12 2331413144044 10,
  r 4147398098865 21 3739003524998 12 1376059875786 11,
  r 3719089993586 21 1148941386536 12 6297302759782 12,
  r 3934238461056 21 1559893008343 12 7872148766781 12,
  r 3672471375622 21 5516145383612 12 6268848941110 12,
  r 3768911277583 21 6116053700563 12 4157198507331 12,
  r 4033388417295 21 5076821746017 12 1567108171867 11,
  r 3764194617832 21 8164676232075 13 3185192151914 12,
  r 4840628226284 21 1360479453671 12 1252801878276 11,
  r 4949443923785 21 2725622229926 12 1617106187867 10,
  r 4117393089971 21 6054459628492 13 5642198095270 12,
  r 3925754020428 21 8570462135210 13 2139354194808 11,
  r 3630551757923 21 3552067338279 12 6294805223347 12,
  r 3627274802357 21 3096565085313 12 6271346477544 12,
  r 3806143885093 21 6367751709777 13 1725304118033 11,
  r 4433254641565 21 4848461503937 12 7445550607224 12,
  r 3712319846576 21 1331950643655 12 4194847048887 13,
  r 3849847534783 21 4958368297746 13 9562891316684 13,
  r 3483955430165 21 2237215515707 12 1161697602389 11,
  r 3961912730982 21 3332402188575 12 2277943724828 11,
  r 3419978244481 21 5785600576016 12 1362553364512 11,
  r 3329417758177 21 9812676559709 14 1685848245639 11,
  r 4207206893193 21 9494780468236 13 2986433403208 11,
  r 3268548976410 21 1739332095686 13 5749861718712 12,
  r 3321880082685 21 1423354800666 12 6279143387820 12,
  r 4503173010852 21 2314972675293 13 1385561574497 12,
  r 4316599090954 21 1012646782616 13 4176041334900 12,
  r 3283493323850 21 5233306881265 12 6287008313071 12,
  r 3164033542343 21 4005597257511 12 2099539292909 11,
  r 4159720956725 21 5365676242020 12 5905702259363 12,
  r 3565176892217 21 4284440620612 12 3932462625300 15,
  r 3514440950221 21 4270562636575 12 7335344340001 12,
  r 3540596871909 21 5953553201060 12 1234573916645 11,
  r 2960769905118 21 1115180417718 12 2670964694522 11,
  r 2962213739684 21 3863811918186 12 6408777551755 13,
  r 3883556700251 21 1268617928302 12 6660449441528 12,
  r 2919225516346 21 4908605223265 12 1375773836557 12,
  r 3115158863370 21 3744519976885 12 3802769619140 14,
  r 4099438144212 21 4173244670532 12 4480965020977 11,
  r 2899531858964 21 5910601428850 12 2059724391010 11,
  r 3289733429855 21 2488050078239 12 1081813534213 11,
  r 3933075612875 21 1122363652883 12 3773735910827 13,
  r 3021403764467 21 4951973724904 12 2982630633589 11,
  r 2798598949757 21 5117057845513 12 1937891852345 11,
  r 3397421302707 21 6104159180476 12 6923953605621 12,
  r 3720398002179 21 1184933429829 12 3066615496545 11,
  r 3598484186267 21 3505282086105 12 6147450479709 12,
  r 3694594027310 21 2286651088141 12 2636725487657 12,
  r 2680444152969 21 1871816775482 13 6816289982179 12,
  r 3497574865641 21 3143251755431 12 6418701221183 12,
  r 3130274129494 21 2462167316018 12 1235996607578 11,
  r 3241119069551 21 4256374004686 12 1652265972112 11,
  r 2601960842061 21 4970362941425 12 1045450126711 11,
  r 2690601527504 21 2372657824898 12 3163918923335 13,
  r 2908688152664 21 4232652627721 12 2828699048865 11,
  r 3120456131875 21 3925747001137 13 2195415756911 11,
  r 3148855423384 21 3093478330445 12 1172006883645 11,
  r 3051044261017 21 5560948248212 12 6055599646783 12,
  r 2826006876660 21 5072790310072 12 5120601093667 12,
  r 3100034191711 21 4998530231096 12 1799603123222 11,
  r 2398771640101 21 2561739802176 12 6255674361143 12,
  r 2384002842728 21 4087420284111 12 6310477339748 12,
  r 2842146517568 21 2515048217955 12 5469525544182 12,
  r 2847674371340 21 5235326497443 12 1034429499989 11,
  r 2903722140764 21 1088200795797 12 6510552054109 12,
  r 3187610710605 21 4710624424816 12 1693792562116 10,
  r 3048869992813 21 2857975896445 13 8390110365991 12,
  r 2860216950984 21 2241619020815 12 2243449970715 13,
  r 2701117683113 21 6651573305272 14 6129297044991 12,
  r 2509891590152 21 1285135324585 12 1044027435778 11,
  r 2623200252223 21 2981229834530 13 6436854655901 12,
  r 2622541669202 21 6122470726189 12 9380959548977 12,
  r 2818435667099 21 4251087148947 12 5934151399930 12,
  r 2365196797465 21 3465070460790 12 2470570524223 11,
  r 2358704646143 21 5791603815350 12 8671969964381 12,
  r 2388299481390 21 4142483772941 12 7096626156709 12,
  r 1996041217224 21 2101901889496 12 1727188400790 11,
  r 2687593060336 21 1526689456959 12 7075506709219 11,
  r 2618913670810 21 2397684236095 12 6632000300961 12,
  r 2571523050364 21 5751929456787 13 6206810014183 12,
  r 2582135006946 21 5595464352926 12 4873985990671 11,
  r 2372530190361 21 5092689490655 12 1590676413561 11,
  r 2357178484712 21 4444363527851 12 3097883698531 12,
  r 2451590394723 21 3108251687661 12 6612329252343 13,
  r 2370045949608 21 2608133861079 12 3459636466239 11,
  r 2268997267358 21 3639717753384 12 2844914056730 14,
  r 1731432137906 21 1741898445707 13 2019909489111 11,
  r 1629869741622 21 3902225646724 12 3035599730800 11,
  r 2206215801974 21 4971131250731 12 6281667977667 12,
  r 2205469554680 21 1677462357110 12 6284483723224 12,
  r 2148792362509 21 4236259604006 12 1980482729015 11,
  r 1873733657847 21 5926814998687 12 2876692439167 11,
  r 2026573758959 21 4349643351962 12 2449240616245 11,
  r 1807770325110 21 5700940482701 12 2045286941806 11,
  r 1881174408581 21 6601286363430 13 2358125818164 11,
  r 1368023671690 21 2211098592752 12 2473415438279 11,
  r 1720017916280 21 4942488551129 12 1679593901136 10,
  r 1702427665131 21 1452233856386 12 3338575901272 10,
  r 1414032510054 21 5525357721439 12 1624205518357 10,
  r 1652626045364 21 4108794283624 12 8956999012000 11,
  r 1642957769686 21 7344335209984 13 5267006960365 11,
  r 1614952403624 21 3541213951363 12 3332657872986 11,
  r 1535988291188 21 4031094072151 12 3852657435933 11,
  r 1593193738177 21 4185136203609 12 2282781046519 10,
  r 1074569126382 21 1720485636868 12 8397383534231 11,
  r 1074408214509 21 2758613420318 12 8401985929482 11,
  r 9700199670465 22 4216686842097 12 7826370942180 11,
  r 1258433517061 21 2575068876639 13 3115650189215 10,
  r 1240303229539 21 4800844956756 13 1784300471910 10,
  r 9018345948127 22 3896756361552 13 5886454391678 11,
  r 1135301432805 21 3700805023550 13 7842370451713 11,
  r 9215887951370 22 4364579276638 12 1014262087719 10,
  r 1055401054147 21 2156564222111 12 5660027930059 11,
  r 1008725979831 21 5454015785234 12 4245678405627 11,
  r 7217398104321 22 1597772562175 12 2457074661053 10,
  r 6912033134447 22 5824090621461 12 1679936946371 10,
  r 6833881523549 22 3578778482835 12 6053048899753 11,
  r 4887304205142 22 3724362812423 12 9656299901946 11,
  r 5173709754788 22 5422427507933 12 2442876000072 10,
  r 4671353097145 22 2396106924439 12 1435713242844 10,
  r 5652608439480 22 2804028838685 12 8365903305582 11,
  r 5604061331253 22 1638816006247 12 8433466158131 11,
  r 4712723365400 22 8979003224474 13 3164282286739 10,
  r 4909967465112 22 3210426725516 12 4059982187939 10,
  r 4771358267658 22 5308027211629 12 1805255418145 10,
  r 3943451445989 22 2195145341074 12 2568537517081 10,
  r 3952109120244 22 5081189491586 12 2449975330562 10,
  r 3788134594789 22 4345171264441 12 1568131045107 10,
  r 3738330190479 22 2613062847997 12 3948519331910 10,
  r 3099866678136 22 2846760817689 12 1547176098872 10,
  r 2002962716768 22 4921360989412 12 2268582385539 10,
  r 2198291338754 22 1130360117454 13 1658638954901 10,
  r 1491958330784 22 4228195232278 12 2219950288015 10,
  r 1475384076173 22 3005721811604 13 3052819430710 10,
  r 1661626624624 22 7830125621203 13 2526661704812 10,
  r 9015823460025 23 3807792942715 12 4171445043968 10]

/-- `E0(·,·,2)`: 501 terms. -/
def E0Y : List (Dec × Dec × Dec) := [
  r 9998921098898 13 1826583913846 13 6283075850446 12,
  r (-2442700893735) 14 0 13 0 13,
  r 8352929742915 15 1395277998680 13 1256615170089 11,
  r 1046697300177 16 9641423109763 14 1884922755134 11,
  r 3110841876663 17 5381140401712 12 8399684731857 11,
  r 2570269094593 17 5301016407128 12 5296909721118 13,
  r 2147389623610 17 2662510869850 12 1577343543434 12,
  r 1680344384050 17 5207904119704 12 6279552690824 12,
  r 1679117312193 17 4582187486968 12 6286599010068 12,
  r 1440512068440 17 1900688517726 12 2352866153506 12,
  r 1135139664999 17 5273108538556 12 5223693906222 12,
  r 9345482571018 18 4503047687738 12 1203646072878 11,
  r 9007418719568 18 1605621059637 12 1021328554739 11,
  r 5671536712314 18 5812849070861 13 1059381944224 12,
  r 7451401861666 18 2807346794836 12 3981490189893 13,
  r 6393470057114 18 6029224133855 12 5753384878334 12,
  r 6814275881697 18 6472990145974 13 4705732307012 12,
  r 6113705628887 18 3813843419700 12 6812766822558 12,
  r 4503851367273 18 4527804370996 12 5884926831456 12,
  r 4522249141926 18 5991783029224 12 6256777527156 12,
  r 4501794307018 18 3798703844397 12 6309374173736 12,
  r 5514927480180 18 3961257833388 12 5507553240374 12,
  r 4062862799995 18 5256247296369 12 6681224869435 12,
  r 5414900429712 18 5499032014097 12 7755226100720 13,
  r 5463153987424 18 6173092454097 12 1414349524433 11,
  r 5071611859329 18 2870244247651 12 7860419393880 12,
  r 2195112094455 18 2952338617201 12 1150676975667 11,
  r 2279139233919 18 5951775132933 12 7058598460518 12,
  r 2278386100876 18 4845456398785 12 4694002934110 12,
  r 2559088003308 18 6945321117311 13 1216800268190 11,
  r 2561079286856 18 6167224608301 12 7099330490126 13,
  r 1792755796387 18 1400122509632 12 7962980379786 13,
  r 1818715656502 18 4703347611830 12 6283142985870 12,
  r 1818744924791 18 5086748900237 12 6283008715021 12,
  r 1554518791390 18 5331008042713 14 2513230340178 11,
  r 2063265737239 18 4283680484178 12 1179062909082 11,
  r 1497613520041 18 6074207826073 12 5486777812467 12,
  r 2000617940427 18 2501426281450 12 1778984560711 11,
  r 1289731195580 18 3646340599536 12 7079373888424 12,
  r 1282657998934 18 3232864804902 12 3738761453707 12,
  r 1528915968658 18 5581433416669 12 2132990797783 13,
  r 1187304098432 18 5453576453694 12 9437762937313 12,
  r 7842782928118 19 2823953922273 13 8827390247185 12,
  r 7352892280868 19 1124369580175 12 1589072916335 12,
  r 6570189360797 19 2089154042840 12 1176985366291 11,
  r 6324967590410 19 6704855581230 13 6262300422539 12,
  r 6298289872283 19 2836414855840 12 6303851278352 12,
  r 6476686465855 19 4852433866467 13 7113454667900 15,
  r 8587034651234 19 1453511005668 12 1672837615881 10,
  r 8068948788113 19 9224087798609 13 6069776770667 12,
  r 8353786011661 19 4631707184895 12 3340612434717 12,
  r 6009324532132 19 1829498827726 12 4136910472696 12,
  r 7558158559566 19 2588596800317 12 6496374930224 12,
  r 5809279504503 19 5516818853476 13 1097707878456 11,
  r 5374131950254 19 6275674734960 12 1194447056968 12,
  r 5711160507326 19 1091905956872 12 6282095334605 12,
  r 5710183170746 19 2415001635090 12 6284056366286 12,
  r 5144373590610 19 6020336443438 12 6290189305114 12,
  r 5103108927267 19 3775634564605 12 6275962395778 12,
  r 4960654697891 19 1073450946756 12 6127655567643 12,
  r 4786385689280 19 2431178012310 12 6438496133249 12,
  r 6109911263665 19 5343356157914 12 3154687086868 12,
  r 4839898944024 19 5830833594047 14 8018209333619 13,
  r 4734822623919 19 4536080134821 12 3128388763578 12,
  r 4834741473290 19 2585090489754 13 7084896783808 12,
  r 5134858581156 19 4213317172603 12 1235285262111 11,
  r 5064004264978 19 4814418806478 13 1185621865188 11,
  r 3753476772761 19 1599953399788 12 8429241228195 12,
  r 4935264014283 19 2157417556873 12 2544314396739 12,
  r 3950929600897 19 3359394184254 12 5481254917084 12,
  r 4895849789777 19 5165704376558 12 9225539266174 12,
  r 4215241688886 19 2065368800993 12 1726015463500 11,
  r 3796773731132 19 1468606346612 12 4265981595566 13,
  r 3114178142515 19 3615638079474 12 2146165377750 12,
  r 3260664220838 19 4417134922435 12 4164311961999 12,
  r 3976996123008 19 4700866883004 12 5856477690889 12,
  r 2801459672924 19 4538902060922 12 1256967486051 11,
  r 3638931868861 19 1334197991475 12 1807370494127 11,
  r 2487013269476 19 3749275558275 12 2629832328990 14,
  r 3034165481994 19 4236622030873 13 4535059491685 12,
  r 2676278825586 19 5970848007811 12 3930209696940 12,
  r 2764903818918 19 5194636754501 12 1256262854127 11,
  r 2485149930507 19 1002434207846 12 5088628793478 12,
  r 2199305540941 19 3066773098403 12 1255903824622 11,
  r 2571106500435 19 7588312459063 13 1336797263425 11,
  r 2049751817158 19 3444977434856 12 1137170464392 11,
  r 2599707296297 19 1873128542205 12 7143069561767 11,
  r 1785018072217 19 5015891306615 12 1748016358760 12,
  r 2324833891115 19 4618271239730 12 1831953657923 11,
  r 1709711119545 19 5300003455669 12 4933208510675 12,
  r 2107159351716 19 2229819815115 12 7477522907414 12,
  r 1750333080295 19 6161485880008 12 1044738781244 11,
  r 2000598210339 19 2967357299999 12 8031092209206 12,
  r 1380920248681 19 3027007923917 12 8635942003952 12,
  r 1412460470299 19 6037597163798 12 2942463415728 12,
  r 1888459803001 19 8561476243374 13 1561374759853 10,
  r 1788370542585 19 4869736290209 12 1592596075957 12,
  r 1360893296167 19 3626411886436 12 1309584267300 11,
  r 1506846530160 19 1550975377427 12 1649636139783 11,
  r 1800913376176 19 2075826033190 12 1729818233119 11,
  r 1436261390649 19 6148876420255 12 2042657109477 11,
  r 1220227114151 19 4382583879906 12 7632943190217 12,
  r 1337883603592 19 2036644327361 12 1213955354133 11,
  r 1159326650738 19 3892276994687 12 5331357529664 12,
  r 1352853128569 19 1447950649744 12 1673046366289 11,
  r 1433408296083 19 4457854692961 12 7342457794669 12,
  r 1234701666518 19 1538818147151 12 6279485555400 12,
  r 1234027192007 19 1968523220760 12 6286666145492 12,
  r 1244024091797 19 5779803499985 12 1511046609763 11,
  r 1097934945516 19 6210975221388 13 1098880815746 11,
  r 1254611329856 19 2591963807998 12 1572083878776 11,
  r 1158247286784 19 2483612812670 12 5729506548653 12,
  r 9039078252960 20 3857554579796 12 9623688285163 12,
  r 9108024978836 20 5826368512984 12 7234794171227 12,
  r 8887068108436 20 3475694573987 12 6148010737701 12,
  r 8632374035438 20 3059070488983 14 6418140963190 12,
  r 7893186992967 20 1583194837728 12 2118763888447 12,
  r 8297650201172 20 8519770534637 13 1471231707864 11,
  r 1019759578988 19 1319598738732 13 1349867339771 12,
  r 1010037696236 19 9937860115618 13 6836645152238 12,
  r 1047727548266 19 1382138405399 12 5999216516294 12,
  r 7351993881086 20 3833397851735 12 6040347114260 12,
  r 9868771092341 20 2124913814390 12 6566935184597 12,
  r 7007321959390 20 5946305343763 12 6525804586632 12,
  r 6861411679709 20 4574654977089 12 7238675589263 12,
  r 7554519809614 20 5949232686844 12 1253985337760 11,
  r 9541880448335 20 3495242990564 12 2122839202813 11,
  r 7185606722155 20 4310113471661 12 6245048154254 12,
  r 7131360871710 20 5480309323650 12 6321103546637 12,
  r 6651142021039 20 5411097713654 12 5327476111629 12,
  r 8538618213667 20 1827849973951 12 1101510648075 11,
  r 8634954288044 20 5443584943349 12 5643178611111 12,
  r 7449415051484 20 2011535459060 12 5368044267797 13,
  r 7421047599169 20 3464562529249 12 2354323048545 11,
  r 6140694354424 20 5657556228815 12 1296430071988 11,
  r 6353525143033 20 3463816593821 12 1990745094947 12,
  r 6221964013447 20 1532259498697 12 9517183207817 13,
  r 5852480257244 20 1375396598875 12 9555997388169 13,
  r 6398637498911 20 2405645801972 12 2407292145756 11,
  r 7039744069878 20 5397541799027 12 5225775174439 13,
  r 6977997694382 20 4762347105419 12 1097355562493 11,
  r 7460629558396 20 2711944692164 12 2200391463820 11,
  r 5376577536101 20 2352980430239 12 1431416805965 11,
  r 7530607893556 20 1943940180699 12 1842262939178 11,
  r 6822928971605 20 4337651846959 12 1554202828031 13,
  r 6220772380094 20 6716871369278 13 1845107853235 11,
  r 6586950799043 20 2229714460505 12 5216580451554 12,
  r 5873800565771 20 7627013920580 13 6398972393349 13,
  r 6264346929745 20 6202785478961 13 6277552955062 12,
  r 6257929115669 20 2886775596668 12 6288598745829 12,
  r 5343536033409 20 1977241012051 12 4690479774488 12,
  r 5587849781714 20 1922923484825 12 1551045220144 12,
  r 6905100845603 20 3570757164631 12 1030928125552 13,
  r 6178957066649 20 5197558947765 12 5230807360890 12,
  r 6187270224331 20 8193497368922 13 5650292065779 12,
  r 5385664291426 20 5406336665586 12 7771377146812 11,
  r 6329363917926 20 2837760654536 12 2608790314060 11,
  r 4546018761604 20 2933580297050 12 5535693017924 13,
  r 6196091049375 20 4157871494377 12 8467247584405 11,
  r 6159555108218 20 3211703561703 12 2394243902548 10,
  r 4995340539317 20 1459098102922 12 4732030630302 12,
  r 5457031243572 20 1430457676136 12 6179983037890 12,
  r 4863461418397 20 2196425916730 12 9027992316901 11,
  r 5342947626870 20 2086612890268 12 6386168663001 12,
  r 5674296648439 20 2760204966535 12 6915859635113 12,
  r 4745783120161 20 4245368971862 12 6282970628506 12,
  r 4745676961198 20 5544725787016 12 6283181072386 12,
  r 4049796869973 20 2213984363586 12 6254626709878 12,
  r 4248333596940 20 8075781952896 13 7875671926403 12,
  r 4027178070205 20 1293268540378 12 6311524991013 12,
  r 4066543943476 20 3986141175804 12 3634620989887 12,
  r 4858863787880 20 1276112738231 12 5760498333002 12,
  r 5277398263530 20 4916111741527 12 2515860172507 11,
  r 4105635656559 20 1725805864426 12 6709674010002 12,
  r 4376781925772 20 2243642442106 12 6805653367890 12,
  r 3235827894693 20 3614135118271 12 1066495398892 12,
  r 3073244740308 20 2460873393460 12 5863591145557 12,
  r 3088609271373 20 5678431771790 12 9917696840332 12,
  r 3393022279836 20 3814017477291 12 1391601904066 11,
  r 3038686508802 20 4660216229171 12 1256621883632 11,
  r 4019677752497 20 5906906243735 12 1334167431096 11,
  r 3288834998232 20 9536146445882 13 1620077269078 11,
  r 3889973794631 20 3942205097644 12 7478166569050 14,
  r 3050438987141 20 1624810271286 12 1805292951336 11,
  r 3601142564638 20 4030467142575 12 6208294184755 12,
  r 3689015557141 20 3648878818694 12 5966683958112 12,
  r 3563471893565 20 5749584017096 12 6357857516136 12,
  r 2776183170667 20 2630124187070 12 3523159621801 15,
  r 2922350530341 20 1790346403629 12 1272157198369 11,
  r 3511076917302 20 6142198301611 12 6599467742779 12,
  r 3619351007632 20 1432421386492 12 6019991944201 12,
  r 2561254711098 20 2302822475792 12 1259245002418 11,
  r 2626903942920 20 8660470994571 13 6702560555334 12,
  r 2550187397083 20 6069721995383 12 1057540660594 11,
  r 2535873526138 20 1079020331795 14 3141537925223 11,
  r 3519786153847 20 3809066902283 12 2505706758577 10,
  r 3424651492873 20 2075435114417 12 6546159756691 12,
  r 2372676630861 20 2057803120154 12 2388894113936 12,
  r 2710980779541 20 1510068488010 12 1202934727411 11,
  r 3038710889704 20 5043617528901 12 1256608456547 11,
  r 2220364130585 20 3694793218205 12 1336244973887 11,
  r 3025880825460 20 5450618999049 14 2908881142201 11,
  r 2784493486864 20 3381164084502 12 1494531617769 11,
  r 2294414142438 20 4382309025210 12 6076890225335 12,
  r 2012723294724 20 9142212256518 13 6262720680387 12,
  r 2036357831958 20 5676172293154 12 4701116388778 12,
  r 2003474823288 20 2592767977625 12 6303431020504 12,
  r 2207144900109 20 5404976271180 12 6489261475556 12,
  r 2481664905135 20 4373284587027 12 1204357418345 11,
  r 2674949182295 20 5859182188482 12 4590910121555 12,
  r 2450554720322 20 4555381557451 12 1495633313810 13,
  r 2601975986457 20 3933165584959 12 1965104848470 11,
  r 2199860022848 20 5227977189087 12 1351787002167 11,
  r 2448121172316 20 4858060353949 12 1162474756779 12,
  r 1876014864049 20 5690546553605 12 6279194432410 12,
  r 1874513219396 20 4099539297446 12 6286957268481 12,
  r 2156380842559 20 4382594769913 13 1813929450232 11,
  r 1981691240061 20 1829784152444 12 4686889479442 12,
  r 2329992648539 20 2836254278973 12 1002183730415 11,
  r 1765184135302 20 2803494925833 12 4292330755499 12,
  r 2436368366085 20 2836897959677 12 9514313292143 11,
  r 2164089203889 20 6127522446024 12 6037244212485 12,
  r 1847755034221 20 3683163635008 12 2427287361862 13,
  r 1674798769966 20 3316993867246 13 1311972100268 11,
  r 2222542124356 20 8294097805480 13 1266924451345 11,
  r 2071074505925 20 3659492220261 12 6528907488406 12,
  r 1608224471835 20 4774492067182 12 1352175143971 11,
  r 1857583439071 20 2873120597682 12 8662240327241 12,
  r 1793018836159 20 5282441177929 13 6819880277225 12,
  r 1575391221692 20 1320789654258 12 1102062672231 13,
  r 1840132009557 20 1917110916256 12 6514761976723 11,
  r 1760917288281 20 2972635937132 12 5746271423666 12,
  r 1561779518516 20 4372569261981 12 6272439236156 12,
  r 1558687885205 20 5416424926425 12 6293712464735 12,
  r 1951359382579 20 3094448898752 12 2301353951334 11,
  r 1569144275614 20 2802103689808 12 1765478049437 11,
  r 1479130389462 20 2136435020467 12 2077542790660 14,
  r 1467828510764 20 7072627435674 13 1052268489556 12,
  r 1627627337440 20 3947607143237 12 6327837846670 13,
  r 1503498479758 20 4079248909190 12 7626583626240 14,
  r 1297967708237 20 6269637122840 12 1149965630200 11,
  r 1374416896634 20 4175657970702 12 6016468784579 12,
  r 1783812325219 20 1476540547560 12 3301902111895 11,
  r 1525884228756 20 4653477715241 12 9411464614024 12,
  r 1451067396763 20 2573001128225 12 1277945078067 11,
  r 1297713111950 20 5612799618771 12 6549682916313 12,
  r 1462784012820 20 4189661623870 12 1863592847156 11,
  r 1384185980007 20 2656915472196 12 2379164476796 12,
  r 1221497599801 20 5612515760138 12 1257326515556 11,
  r 1560574525896 20 4783414317919 12 1887552587463 11,
  r 1544598372036 20 2694431138063 12 1820933031200 11,
  r 1531678928696 20 4105103489666 12 2593412433514 11,
  r 1349321503795 20 3082437194015 13 5120601093667 12,
  r 1252030290917 20 6124072334087 12 6993008899458 12,
  r 1459243816687 20 3733103981697 12 3813291813120 14,
  r 1226103625262 20 1267127706817 12 2435678079171 11,
  r 1019449641504 20 4367790112269 12 1725663147538 11,
  r 1380789433607 20 3387201768700 12 2458316379602 13,
  r 1019453421658 20 9204143073737 13 6112403035119 12,
  r 1297929434405 20 5786874896426 12 1249137003520 11,
  r 9912677786097 21 3164232870746 12 6247047890016 12,
  r 9829386098599 21 2586762413351 12 6453748665772 12,
  r 1226807746104 20 6239068436607 12 5429879531333 12,
  r 1192691755997 20 1867380051424 12 6290122169689 12,
  r 9836499227081 21 3424716293727 13 6319103810876 12,
  r 9642862564285 21 5661372990657 12 8273820945392 12,
  r 1165184404862 20 5768367239093 12 1778273215245 11,
  r 1175794418818 20 1657351222943 12 6276029531202 12,
  r 1018948635601 20 6458292350865 13 1254537627298 11,
  r 9500383606676 21 1054306140741 12 1256517118505 11,
  r 1227512202906 20 2505278379114 12 2248384854122 11,
  r 9664792009993 21 4289737277000 12 6259197520765 12,
  r 9613285666331 21 5500597673141 12 6306954180126 12,
  r 1117906736211 20 2361405953468 12 1779695906178 11,
  r 9611378640782 21 2851310576269 12 2061856251104 13,
  r 8845354852370 21 6208777705343 12 1692165728891 12,
  r 1054046966600 20 5413091423934 12 2204125344462 13,
  r 1215539124483 20 5613969479755 12 8257698122054 11,
  r 9932460955209 21 1106124877015 12 1017725758696 11,
  r 8785804715043 21 2869224476477 12 9491756770005 13,
  r 8538084097562 21 6159640899344 12 6393282117669 12,
  r 8648994369529 21 1374901198784 12 4804209201333 12,
  r 1039063219067 20 5171080641327 12 1550861511662 11,
  r 8867983926439 21 8317320304902 13 3903911373650 12,
  r 8327495955244 21 3605591969180 12 6172869583223 12,
  r 9243088356133 21 6114299196843 12 6267823317922 12,
  r 9205657357835 21 3675153683737 12 6298328382969 12,
  r 1033269714606 20 3313328813024 12 5573142801433 12,
  r 8001706275552 21 2019980960053 12 2648454860559 12,
  r 9171858254191 21 8992015524177 13 1498544001348 10,
  r 1075327150242 20 2898669963648 12 3694923081589 11,
  r 9884866689828 21 4946715904478 12 1140367694411 11,
  r 9541835576677 21 2371787888469 12 1256713221673 11,
  r 7739903376237 21 2213775190612 12 7834121070590 12,
  r 7311962684106 21 3429378787739 12 1192625446156 11,
  r 9724904869624 21 6195878564404 12 2280573557157 11,
  r 9251628983612 21 6511509527390 13 2787043132925 12,
  r 7320763787842 21 6001083639421 12 6282655592598 12,
  r 7320296650962 21 3789073265087 12 6283496108294 12,
  r 7947032271039 21 1059659582204 12 1241073141809 11,
  r 9005277053115 21 1280315624361 12 6281591679874 12,
  r 8995601652048 21 2224439106766 12 6284560021018 12,
  r 8288040568796 21 5234914433867 12 1241658836951 11,
  r 6359381347255 21 4137989441490 12 1596186371003 12,
  r 8699572228626 21 1758411009497 12 6133512519065 12,
  r 6456797542736 21 5919285089994 12 1685848245639 11,
  r 7424573475452 21 5414616938827 12 4061219149443 12,
  r 7235671196168 21 1496516557134 12 1610006857377 10,
  r 8104015182733 21 1919918242764 12 8460828644453 13,
  r 8098576535937 21 3819615855458 12 3894181736510 12,
  r 6275292346625 21 6244264115141 12 8531963191132 13,
  r 6052432989112 21 5037731872610 13 1567108171867 11,
  r 5705651535817 21 2984557271995 12 1258692712880 11,
  r 5789650115138 21 6087038140697 12 1193336791622 11,
  r 5512132153377 21 5855668994076 12 1232342296471 11,
  r 7388890819102 21 2443128574740 12 4907302013889 12,
  r 5467593991798 21 3017561234194 12 1884211409667 11,
  r 6388519802999 21 5887386712935 12 5217580628120 11,
  r 6106777149944 21 3483461059895 13 1422690933580 14,
  r 7383420275489 21 5417387056707 12 2358125818164 11,
  r 5505208141738 21 2848193644783 12 1151388321134 11,
  r 6310757462877 21 2349882520828 12 1041998632314 11,
  r 6166904929691 21 5728575944077 13 6151533897323 12,
  r 5263442042754 21 4495796125937 12 1885275071096 11,
  r 5591828082629 21 1355441967677 12 4337116142245 13,
  r 5397051680497 21 1673422864307 12 6286362197481 12,
  r 5396992745159 21 1833502206373 12 6279789503410 12,
  r 6572913000726 21 3331122065824 12 1176433076753 11,
  r 5123421866413 21 2165327142679 12 1245594543367 11,
  r 5930495725999 21 2931146089284 12 6414617803568 12,
  r 6431797403933 21 4134407994088 12 1350651127443 13,
  r 5003182207604 21 3805420303749 12 1096996532989 11,
  r 5587731032504 21 1082469260599 12 6062663316000 12,
  r 5935263407816 21 8384333678401 13 5326786718777 12,
  r 4756019827760 21 3552588749309 12 3104930017775 12,
  r 6599951172637 21 4320826409528 12 4087944051283 11,
  r 5902606868464 21 4811879454445 12 5849364236221 12,
  r 5921147809031 21 9942628922396 14 1581959461667 12,
  r 5505382581266 21 2466557607764 12 6503488384892 12,
  r 5353771071862 21 4551978748683 12 1735668374386 10,
  r 5063282210946 21 5710812312425 12 1248988586463 11,
  r 5926120403383 21 1333998428358 12 2673594526851 11,
  r 5211016176149 21 4649315360760 12 2460261242967 11,
  r 5347075084894 21 5512754081205 12 4171425416666 12,
  r 4872609773574 21 1308025299938 12 5333900173445 12,
  r 4727711321420 21 2144908368062 12 7232251527446 12,
  r 6029426018652 21 5567259412084 12 3227113045244 10,
  r 4321485284369 21 5230667156451 12 9388005868221 12,
  r 4476406760553 21 6134081115303 12 5547199253223 12,
  r 5835268277420 21 4783808492071 12 7285056171570 11,
  r 5172183602748 21 5161817911099 12 1884570439172 11,
  r 5693571465184 21 1381646203111 12 9723862754494 11,
  r 4060634965349 21 3876705259495 13 4274518229222 12,
  r 3967398770473 21 5029491776223 12 3496032717521 12,
  r 3943754005255 21 1923162955490 12 6244942932314 12,
  r 4781323427824 21 4633332586423 12 2929661536378 11,
  r 3871483781204 21 1616650009743 12 6321208768577 12,
  r 5141741733997 21 9817316704659 14 1232032006293 11,
  r 4002385978497 21 3656161212139 12 7018952447668 12,
  r 4901092604097 21 4404098713092 12 1478866649112 12,
  r 3740932630345 21 5181188732639 13 6922973089781 12,
  r 4387283718538 21 3254859566869 12 2331413144044 10,
  r 5019197802033 21 3086773224677 12 1715706182245 11,
  r 3834931695175 21 2797882673542 12 1491901785440 11,
  r 3760413942497 21 2892676280217 12 1726726808967 11,
  r 3719717204628 21 5861046025739 12 6297302759782 12,
  r 4145623530149 21 2168239627033 12 1376059875786 11,
  r 3932788425380 21 6271811124181 12 7872148766781 12,
  r 3686377476857 21 3936853151404 12 6268848941110 12,
  r 3779077950339 21 1404148734043 12 4157198507331 12,
  r 4091334550598 21 2452436180854 12 9779108567966 12,
  r 3926694536146 21 6102292739040 12 1098419223922 11,
  r 4841000253289 21 6072760457276 12 1252801878276 11,
  r 4949340130240 21 1154832815171 12 1617106187867 10,
  r 3761557737360 21 5527545321897 12 3185192151914 12,
  r 3647396268188 21 1525035688629 12 6271346477544 12,
  r 3932405074189 21 5570681040569 12 2139354194808 11,
  r 3631322501141 21 1981240601160 12 6294805223347 12,
  r 4130007425139 21 2050060880201 12 2195415756911 11,
  r 4433905965176 21 3277477970321 12 7445550607224 12,
  r 3851814176947 21 5210690074886 12 9562891316684 13,
  r 3485807052785 21 6653274904611 13 1161697602389 11,
  r 3979772816991 21 1767941436148 12 2277943724828 11,
  r 3402607460500 21 3421746306465 12 1087398597200 11,
  r 4049993000926 21 1127144787547 12 3163918923335 13,
  r 3420511182382 21 4214794779161 12 1362553364512 11,
  r 3640772365012 21 5324905497687 12 1725304118033 11,
  r 3323037987501 21 6135761838271 12 6279143387820 12,
  r 4503141663637 21 1802305450666 12 1385561574497 12,
  r 4314560055588 21 4812299731574 12 4176041334900 12,
  r 3294226949110 21 3657547059723 12 6287008313071 12,
  r 3215657197281 21 4866676894425 12 5749861718712 12,
  r 4129362656266 21 3809342558906 12 5905702259363 12,
  r 3137762976388 21 2494635174443 12 2099539292909 11,
  r 3514010952384 21 2699961831678 12 7335344340001 12,
  r 3327607571530 21 3318457714816 12 5436992986000 12,
  r 3541066946675 21 4382703582466 12 1234573916645 11,
  r 3216179847052 21 5271066317054 12 3802769619140 14,
  r 2959045059570 21 5819591585302 12 2670964694522 11,
  r 3884040326665 21 5980934960428 12 6660449441528 12,
  r 2922027539886 21 3337290282483 12 1375773836557 12,
  r 4110846382042 21 5742978187327 12 4480965020977 11,
  r 2934508411032 21 2278075804200 12 6408777551755 13,
  r 3966896193000 21 5835747858477 12 3773735910827 13,
  r 3286695827610 21 5838898193902 12 3932462625300 15,
  r 3720643094196 21 1122212337858 12 1646033343740 11,
  r 3285508906174 21 9182250996416 13 1081813534213 11,
  r 3753880575973 21 5174761973266 12 5642198095270 12,
  r 3022129385587 21 3381611020639 12 2982630633589 11,
  r 2798569205621 21 3546193723922 12 1937891852345 11,
  r 3397872070505 21 4533203197934 12 6923953605621 12,
  r 3708099772977 21 2756168198616 12 3066615496545 11,
  r 3599283541510 21 1934395469918 12 6147450479709 12,
  r 3688702753059 21 7149920971109 13 2636725487657 12,
  r 2681084724003 21 4899819493154 12 6816289982179 12,
  r 3495993460759 21 1572418915115 12 6418701221183 12,
  r 3130770324995 21 8912190180489 13 1235996607578 11,
  r 2744353821941 21 3800821940055 12 2059724391010 11,
  r 2842732906341 21 2644717440029 12 2828699048865 11,
  r 3046882682154 21 3987793020179 12 6055599646783 12,
  r 2399072455143 21 9908826440764 13 6255674361143 12,
  r 2384306274204 21 2516149752220 12 6310477339748 12,
  r 2977324500559 21 5849195642118 12 1652265972112 11,
  r 3062835258972 21 1681660100162 12 1172006883645 11,
  r 3109682589231 21 5804143987737 13 2751146787858 11,
  r 2903920355299 21 5800768280123 12 6510552054109 12,
  r 2823221989212 21 9241118370216 13 5469525544182 12,
  r 3187949696649 21 3139776445735 12 1693792562116 10,
  r 2922559771655 21 3549440782984 12 2630839062450 13,
  r 2436302066603 21 4735540696319 12 3946258593675 13,
  r 3049473043606 21 4998289124561 12 8390110365991 12,
  r 2863682575784 21 6709515671102 13 2243449970715 13,
  r 2641750517966 21 5410978257284 12 2986433403208 11,
  r 2704093466243 21 4778317207821 12 6129297044991 12,
  r 2445522177011 21 6009020662222 12 1171295538178 11,
  r 2623608810230 21 5010449777147 12 6436854655901 12,
  r 2079259704053 21 5980943768809 12 2019909489111 11,
  r 2820225596771 21 2679965110468 12 5934151399930 12,
  r 2365221950927 21 1894231148810 12 2470570524223 11,
  r 2359682077149 21 4220752950780 12 8671969964381 12,
  r 2387577137206 21 2571783940617 12 7096626156709 12,
  r 1982102089816 21 5169765997119 13 1727188400790 11,
  r 2687502389925 21 6239078264579 12 7075506709219 11,
  r 2207751669135 21 2031184412677 12 4377611041777 12,
  r 2618370214274 21 8266079985979 13 6632000300961 12,
  r 2591951887361 21 8819350522008 13 4873985990671 11,
  r 2375055656248 21 3520944177789 12 1590676413561 11,
  r 2472019978911 21 1551431908671 12 6612329252343 13,
  r 2368157127199 21 4178610147412 12 3459636466239 11,
  r 1764846605693 21 1506764000157 12 1980094587212 11,
  r 2291769608798 21 2118250611782 12 2844914056730 14,
  r 2209997316943 21 3363255261678 12 2666070658668 13,
  r 2292699097923 21 4200423956460 13 1484170571900 15,
  r 1629683015329 21 2331362582487 12 3035599730800 11,
  r 2206492862426 21 3400274026992 12 6281667977667 12,
  r 2205746568257 21 1066051230724 13 6284483723224 12,
  r 2026310767991 21 2779066487979 12 2449240616245 11,
  r 1762977622163 21 9951450691840 13 2045286941806 11,
  r 1368535049606 21 6402447365817 13 2473415438279 11,
  r 1720598775450 21 2303524214705 13 1679593901136 10,
  r 1702429015449 21 6164622655048 12 3338575901272 10,
  r 1414033197685 21 3954561185580 12 1624205518357 10,
  r 1573768958043 21 2028286308984 12 3144167757552 11,
  r 1650705184447 21 2304040666128 12 5267006960365 11,
  r 1651087618855 21 2538461057280 12 8956999012000 11,
  r 1616409518983 21 5111054348152 12 3332657872986 11,
  r 1537175173581 21 5601130666603 12 3852657435933 11,
  r 1593191980553 21 2614340453411 12 2282781046519 10,
  r 1499480170643 21 3624721577264 12 2823723341956 11,
  r 1493807843235 21 4214569879008 12 2876692439167 11,
  r 1074571199328 21 1496911744704 13 8397383534231 11,
  r 1074406983417 21 1187817671922 12 8401985929482 11,
  r 9757576855851 22 2655703035858 12 7826370942180 11,
  r 1258432887565 21 4969896184844 12 3115650189215 10,
  r 1240336343282 21 5192460776926 12 1784300471910 10,
  r 9016107005164 22 1960356923057 12 5886454391678 11,
  r 1135392360918 21 5082427809068 12 7842370451713 11,
  r 9216046089565 22 2793775037273 12 1014262087719 10,
  r 1061276615030 21 3726144311409 12 5660027930059 11,
  r 1010110596263 21 7404080708937 13 4245678405627 11,
  r 7217424756199 22 2697449980577 14 2457074661053 10,
  r 6912003846756 22 4253296276335 12 1679936946371 10,
  r 6871814664847 22 5148072412354 12 6053048899753 11,
  r 4887158016343 22 2153581148294 12 9656299901946 11,
  r 5161802866314 22 3852750634351 12 2442876000072 10,
  r 5652599559057 22 1233233356270 12 8365903305582 11,
  r 4710812608586 22 5610486976767 12 3164282286739 10,
  r 4909977500324 22 1639629524123 12 4059982187939 10,
  r 4772641839378 22 3737100368583 12 1805255418145 10,
  r 4487562567153 22 1158417054478 13 8433466158131 11,
  r 3943441230497 22 6243502862796 13 2568537517081 10,
  r 3952236913598 22 3510377382385 12 2449975330562 10,
  r 3788898363417 22 5916128302299 12 1568131045107 10,
  r 3738329328831 22 1042266763456 12 3948519331910 10,
  r 2451199165151 22 1166788435700 12 1435713242844 10,
  r 2436734402904 22 3254726114901 12 2268582385539 10,
  r 2213605274325 22 1687210598530 12 1658638954901 10,
  r 1491521204829 22 2657541786794 12 2219950288015 10,
  r 1474995329744 22 5013089805819 12 3052819430710 10,
  r 1661939475656 22 5495315428418 12 2526661704812 10,
  r 9015946748003 23 2236989966505 12 4171445043968 10]

/-- `E0(·,·,3)`: 137 terms. -/
def E0Z : List (Dec × Dec × Dec) := [
  r 2796207639075 18 3198701560209 12 8433466158131 11,
  r 1016042198142 18 5422360395913 12 5507553240374 12,
  r 8044305033647 19 3880222866652 12 5223693906222 12,
  r 4385347909274 19 3704369937468 12 2352866153506 12,
  r 3186156414906 19 3999639363235 12 1577343543434 12,
  r 2272412285792 19 3984738315952 12 1047747311755 12,
  r 1645620103007 19 3565412516841 12 5856477690889 12,
  r 1815836921166 19 4984507059020 12 6283075850446 12,
  r 1447461676364 19 3702753570108 12 9437762937313 12,
  r 1430760876382 19 3409658712357 12 1021328554739 11,
  r 1120445753226 19 4829561570246 12 1414349524433 11,
  r 1090232840797 19 2080729178066 12 6812766822558 12,
  r 9715727346551 20 3476295881948 12 4694002934110 12,
  r 1036267136217 19 4056639536648 12 7109288135493 11,
  r 8752665271340 20 4448159519911 12 5753384878334 12,
  r 8331864956004 20 4991704044208 12 7084896783808 12,
  r 6901658670245 20 4325358994219 12 6275962395778 12,
  r 9144536848998 20 1141826375363 12 6620890113188 12,
  r 7205085037435 20 3624344170143 12 5296909721118 13,
  r 7697874654176 20 5554257458998 12 1676215758509 10,
  r 5197545738384 20 6251760961735 12 1807370494127 11,
  r 5031345378608 20 2497341091913 12 4705732307012 12,
  r 4527110205840 20 2335079920992 12 6309374173736 12,
  r 4753355798089 20 7094148987474 13 5884926831456 12,
  r 4296951977516 20 1101916352091 12 6681224869435 12,
  r 3855341568387 20 1825495405486 12 5486777812467 12,
  r 5253930970990 20 4424740687208 12 7860419393880 12,
  r 4024630496471 20 5120498157053 12 1336797263425 11,
  r 4061069791453 20 6029771435451 12 3930209696940 12,
  r 3797883804205 20 4435193600836 13 3154687086868 12,
  r 2933033225587 20 5124157356507 12 1059381944224 12,
  r 3503000930426 20 5421830162065 12 6069776770667 12,
  r 3670096214050 20 4582101667297 12 1219403291462 11,
  r 2905609437008 20 1926566420072 12 1097707878456 11,
  r 2466827821713 20 6090174539834 13 6496374930224 12,
  r 2691647295332 20 1393432595077 12 2200391463820 11,
  r 2150554667946 20 4308671715951 12 5643178611111 12,
  r 2237481922680 20 8133968269414 13 8635942003952 12,
  r 1817741038157 20 3755205127454 12 3340612434717 12,
  r 2227820762132 20 2759558596664 12 1203646072878 11,
  r 1944713772307 20 5699645869121 12 1179062909082 11,
  r 1527340520662 20 1986749091746 12 3981490189893 13,
  r 1577282574914 20 3205017217983 12 5088628793478 12,
  r 1424738825424 20 6256747903666 12 2544314396739 12,
  r 1616563121701 20 2601671259394 13 1729818233119 11,
  r 1401210391692 20 4686939173506 12 7058598460518 12,
  r 1488726974214 20 2815862451372 12 2593412433514 11,
  r 1692626442388 20 4956894109797 12 1564752902480 10,
  r 1123571582910 20 2381192697696 12 3738761453707 12,
  r 9903308606317 21 4294851657684 12 9225539266174 12,
  r 9174533187191 21 3075171510642 12 4164311961999 12,
  r 8645985631457 21 5477534821633 13 8429241228195 12,
  r (-1085876492688) 20 0 13 0 13,
  r 9264309077815 21 5968571670097 12 7079373888424 12,
  r 8243116984954 21 1489098777643 12 1044738781244 11,
  r 8268102113708 21 3512977691983 12 1150676975667 11,
  r 9043613988227 21 1290704408221 13 1101510648075 11,
  r 7432912038789 21 1991086893337 12 2608790314060 11,
  r 8586233727285 21 4238357924414 12 2986433403208 11,
  r 7612230060131 21 2911090150166 12 4732030630302 12,
  r 7097787751408 21 1908938392390 12 8031092209206 12,
  r 7640237040175 21 6129219000168 13 7962980379786 13,
  r 7070445688081 21 1380417036651 12 2146165377750 12,
  r 7690770957702 21 1680504249084 12 2122839202813 11,
  r 8051292542594 21 5127423484511 12 2942463415728 12,
  r 5902709104515 21 2020274190917 12 7755226100720 13,
  r 5134567496462 21 2606778676418 12 1256615170089 11,
  r 5525802046102 21 1613011769663 12 8018209333619 13,
  r 5880724784221 21 4604483417236 12 4690479774488 12,
  r 5211699081370 21 5718964114193 12 8827390247185 12,
  r 4891849573562 21 3689658932196 12 2132990797783 13,
  r 5150246069997 21 4099769855122 12 6480980550449 11,
  r 5102434319633 21 5660834602509 12 3379454372902 11,
  r 5083405254252 21 9842221218974 13 4136910472696 12,
  r 4206562585682 21 1341363634163 13 3128388763578 12,
  r 4663249683579 21 8130132735866 13 5216580451554 12,
  r 4099474416530 21 5791497770644 12 4265981595566 13,
  r 4628251220767 21 1249802769331 12 1572083878776 11,
  r 5024068728142 21 4795684802743 12 6290189305114 12,
  r 5120234327758 21 3810420387208 12 5230807360890 12,
  r 5524029815280 21 1029264714351 12 2397622045175 10,
  r 4757415718860 21 3528044781779 12 1649636139783 11,
  r 3915786131127 21 5593889282646 12 1589072916335 12,
  r 4869053149991 21 3299636454433 12 7632943190217 12,
  r 3649365703729 21 1286049002584 12 6206810014183 12,
  r 3992493949002 21 3100307589464 12 2515860172507 11,
  r 3320247477418 21 6212683940807 12 1216800268190 11,
  r 3287123739696 21 4699118445928 12 7234794171227 12,
  r 3472776811103 21 2630507142004 12 7342457794669 12,
  r 3423253294767 21 2946432844305 12 9623688285163 12,
  r 3896173898244 21 1224834179264 12 6438496133249 12,
  r 3388455337924 21 1543807616351 12 1494531617769 11,
  r 3062704716523 21 1191777572310 12 8662240327241 12,
  r 3270075600400 21 5483498767737 12 1194447056968 12,
  r 3101209215259 21 8000833804348 13 3772475342596 11,
  r 2780883347311 21 4077980721888 13 5863591145557 12,
  r 2903605931824 21 2617490302147 12 1965104848470 11,
  r 2682014743119 21 2634703158290 12 7238675589263 12,
  r 2534360108492 21 6102446114873 12 6836645152238 12,
  r 2392564882509 21 3681820208691 12 5849364236221 12,
  r 2656667254856 21 6216045388886 12 6133512519065 12,
  r 2331242096773 21 5864949777744 12 4535059491685 12,
  r 2287898363668 21 4566628532802 12 7477522907414 12,
  r 2336944521306 21 2442722126930 12 1137170464392 11,
  r 3156632236269 21 1626628050682 12 2509084901204 10,
  r 2982612402766 21 2803604512609 12 1748016358760 12,
  r 2774031674807 21 4654002897158 12 8223916695780 11,
  r 2295236548638 21 4326518333253 12 3378142627421 13,
  r 2190714699873 21 4519614578328 12 2908881142201 11,
  r 2191495845045 21 3012626912549 12 1673046366289 11,
  r 2492901628386 21 1290101424052 13 1543797956245 10,
  r 1993778064319 21 3864046799414 12 1778984560711 11,
  r 1898146479022 21 5053777235891 12 2042657109477 11,
  r 1918280127634 21 2222470192548 12 4165496312290 11,
  r 1916351061607 21 8719067257774 13 7737595720538 11,
  r 1834720181466 21 4031491098040 12 2358125818164 11,
  r 1249201523806 21 5938379466835 12 3301902111895 11,
  r 1477304050539 21 6544722606797 13 9548094718417 11,
  r 1264316431249 21 2059072853236 12 8399684731857 11,
  r 1203526495039 21 3644813532605 12 4558517281984 11,
  r 9221681059831 22 3241815055602 12 7805158573086 11,
  r 7849278367646 22 5043812342457 12 5217580628120 11,
  r 7983392077387 22 5000024502753 12 1501922143975 10,
  r 7925395431654 22 1398734871821 14 9061773743175 11,
  r 7640473285886 22 5067111723130 12 4951538251678 11,
  r 5398937754482 22 5597382200075 12 1613385000004 10,
  r 5626247550193 22 2601338209422 12 7318837597844 11,
  r 5525197197855 22 5814832109256 12 1432335100216 10,
  r 5407629837898 22 3384820609076 12 3230491187871 10,
  r 3856739119801 22 1072391840473 12 2334791286671 10,
  r 3856425239987 22 2369540393327 12 1739046517013 10,
  r 4350867755983 22 5255575751082 12 1620484330494 10,
  r 3844113924996 22 5482356246182 12 9757644180768 11,
  r 2854869155431 22 9573634763143 13 1697170704744 10,
  r 1719227671416 22 1887203025202 12 2265204242912 10,
  r 1527846879755 22 3982183931157 12 3341954043900 10,
  r 1128229264847 22 2787457156298 12 3119028331842 10]

/-- `E1(·,·,1)`: 79 terms. -/
def E1X : List (Dec × Dec × Dec) := [
  r 1234046326004 18 0 13 0 13,
  r 5150068824701 19 6002664557501 12 1256615170089 11,
  r 1290743923245 20 5959437664199 12 1884922755134 11,
  r 1068615564952 20 2015529654209 12 6283075850446 12,
  r 2079619142538 21 1732960531432 12 6279552690824 12,
  r 2078009243969 21 4915604476996 12 6286599010068 12,
  r 6206330058856 22 3616457953824 13 4705732307012 12,
  r 5989335313746 22 3802607304474 12 6256777527156 12,
  r 5958495663840 22 2845866560031 12 6309374173736 12,
  r 4866923261539 22 5213203771824 12 7755226100720 13,
  r 4267785823142 22 4368189727818 13 1059381944224 12,
  r 4610675141648 22 1837249181372 14 7860419393880 12,
  r 3626989993973 22 2161590545326 12 5753384878334 12,
  r 3563071194389 22 1452631954746 12 5884926831456 12,
  r 3557015642807 22 4470593393054 12 6812766822558 12,
  r 3210412089122 22 5195926078314 12 6681224869435 12,
  r 2875473577986 22 5916256610193 12 2513230340178 11,
  r 2842913681629 22 1149902426047 12 6127655567643 12,
  r 2751248215916 22 5502088574662 12 6438496133249 12,
  r 2481432881127 22 2921989846637 12 5486777812467 12,
  r 2059885976560 22 3718070376585 12 7079373888424 12,
  r 2015522342591 22 5979395259740 12 6290189305114 12,
  r 1995364084253 22 6772087985494 13 6275962395778 12,
  r 1957436436943 22 2899210654665 12 5507553240374 12,
  r 1651609818948 22 6228206482192 12 1150676975667 11,
  r 1822980550699 22 1469348746179 12 1179062909082 11,
  r 1675223159760 22 3813910555688 12 7058598460518 12,
  r 1706491764745 22 3004380506684 13 7113454667900 15,
  r 1392952362615 22 1440393973406 12 7962980379786 13,
  r 1209868266342 22 4150425791727 12 4694002934110 12,
  r 1009827202611 22 3290040429843 12 3738761453707 12,
  r 1047261388602 22 4229590090227 12 6282095334605 12,
  r 1047006652004 22 2418967680575 12 6284056366286 12,
  r 9609993143095 23 4627943659201 12 6069776770667 12,
  r 9590900593873 23 1894393939924 12 4136910472696 12,
  r 9146249188071 23 2010647519562 12 6496374930224 12,
  r 8545274480290 23 5529846956226 14 1194447056968 12,
  r 8224377881194 23 1254304102174 12 1589072916335 12,
  r 6183529510410 23 3360862168815 12 8827390247185 12,
  r 6259255147141 23 4755628243179 12 8429241228195 12,
  r 5539291694151 23 5371746955142 12 4933208510675 12,
  r 7328259466314 23 4927699613906 13 4535059491685 12,
  r 6017835843560 23 5776682001734 14 1255903824622 11,
  r 7079827775243 23 4395059432251 12 5088628793478 12,
  r 5170358878213 23 5154062619954 12 1176985366291 11,
  r 4872301838682 23 6289611648973 13 6040347114260 12,
  r 5249869411058 23 5617272046949 12 3154687086868 12,
  r 4716172354411 23 3965901800877 12 5331357529664 12,
  r 4871214940964 23 4627507050093 12 1256967486051 11,
  r 4598076850751 23 6023631226459 12 6525804586632 12,
  r 4562196089485 23 4138562084068 12 3930209696940 12,
  r 4325493872224 23 1330845906564 12 7632943190217 12,
  r 5673781176748 23 2558752615657 12 5729506548653 12,
  r 3961436642503 23 2728071734630 12 7234794171227 12,
  r 5101868209058 23 4113444965144 12 6836645152238 12,
  r 5257043167676 23 6195089830590 12 8031092209206 12,
  r 5076613989393 23 2305124132918 12 7477522907414 12,
  r 3342169352778 23 5415998155071 12 1097707878456 11,
  r 3545881983591 23 3727160564574 12 4164311961999 12,
  r 3364063738599 23 2901121049204 13 1137170464392 11,
  r 3357039670776 23 1652229354331 12 5223693906222 12,
  r 4307412268687 23 4938909587445 12 1592596075957 12,
  r 3405769115435 23 2408890766511 12 3128388763578 12,
  r 3001926198480 23 4862239006386 12 1748016358760 12,
  r 2778264787325 23 5241168661353 12 7342457794669 12,
  r 2676159480666 23 3423593942199 12 2146165377750 12,
  r 2954273399939 23 1881721265406 12 5368044267797 13,
  r 3309362888795 23 1931525677349 12 8018209333619 13,
  r 2810283608438 23 2414659495050 12 5225775174439 13,
  r 3378045637764 23 4238019163430 12 1554202828031 13,
  r 2558134979840 23 1828225235805 12 5230807360890 12,
  r 2273755578447 23 5858184283998 12 7084896783808 12,
  r 2294176037690 23 4514589779057 12 1726015463500 11,
  r 2533506099435 23 2355717851551 12 5216580451554 12,
  r 2716685375812 23 2221003625100 12 8635942003952 12,
  r 2419043435198 23 5955704951635 12 4690479774488 12,
  r 2521232544812 23 1395676848521 12 5481254917084 12,
  r 2630195021491 23 5727468918743 12 2629832328990 14,
  r 2548395840944 23 2628351859400 16 1349867339771 12]

/-- `E1(·,·,2)`: 80 terms. -/
def E1Y : List (Dec × Dec × Dec) := [
  r 9304690546528 19 0 13 0 13,
  r 5150715570663 19 4431807116294 12 1256615170089 11,
  r 1290825411056 20 4388610039678 12 1884922755134 11,
  r 4645466665386 21 5827263376034 12 6283075850446 12,
  r 2079625310718 21 1621698662282 13 6279552690824 12,
  r 2078189850907 21 3344713435140 12 6286599010068 12,
  r 6207190138027 22 5074049319576 12 4705732307012 12,
  r 5989826532569 22 2231842216620 12 6256777527156 12,
  r 5961360812618 22 1274975769045 12 6309374173736 12,
  r 4874165471016 22 3642277426779 12 7755226100720 13,
  r 4283834034360 22 5148765510106 12 1059381944224 12,
  r 4652389287529 22 4715794792175 12 7860419393880 12,
  r 3751707476401 22 6617207370325 13 5753384878334 12,
  r 3559998806198 22 6155548875404 12 5884926831456 12,
  r 3558447558857 22 2898827297664 12 6812766822558 12,
  r 3211116927106 22 3625813502509 12 6681224869435 12,
  r 2875609914672 22 4345435813134 12 2513230340178 11,
  r 2843109704069 22 5862263940038 12 6127655567643 12,
  r 2744676468427 22 3926419475089 12 6438496133249 12,
  r 2481285237789 22 1351976572828 12 5486777812467 12,
  r 2060338481033 22 2147556998591 12 7079373888424 12,
  r 2015822358331 22 4408358972216 12 6290189305114 12,
  r 2001195944195 22 5385829822531 12 6275962395778 12,
  r 1953667642377 22 1304933746120 12 5507553240374 12,
  r 1839744078713 22 6173567228835 12 1179062909082 11,
  r 1643334294845 22 4635942997523 12 1150676975667 11,
  r 1768051018652 22 5086283558874 12 7113454667900 15,
  r 1674874205489 22 2243332137241 12 7058598460518 12,
  r 1421445397609 22 6186899771515 12 7962980379786 13,
  r 1255163958267 22 5730238465658 12 4694002934110 12,
  r 1013945281961 22 1726055228402 12 3738761453707 12,
  r 1047294335852 22 2658801228129 12 6282095334605 12,
  r 1047103879392 22 8481047835035 13 6284056366286 12,
  r 9530343962826 23 3079267149859 12 6069776770667 12,
  r 9604637611690 23 3258679792918 13 4136910472696 12,
  r 9153518537177 23 4398599886584 13 6496374930224 12,
  r 8562458214922 23 4772686794145 12 1194447056968 12,
  r 8232525360654 23 5966220721679 12 1589072916335 12,
  r 6150223411438 23 1780985591923 12 8827390247185 12,
  r 6272087858000 23 3184305429012 12 8429241228195 12,
  r 5540476311040 23 3801260595433 12 4933208510675 12,
  r 7331901699361 23 5205948591865 12 4535059491685 12,
  r 6018528702791 23 4770139083623 12 1255903824622 11,
  r 5150530724804 23 3574796899585 12 1176985366291 11,
  r 6471933741811 23 2679787266521 12 5088628793478 12,
  r 5317460644174 23 9528763345494 13 3154687086868 12,
  r 4832187748783 23 5329322498232 12 6040347114260 12,
  r 4716763555110 23 2395235316466 12 5331357529664 12,
  r 4871509139861 23 3056663648823 12 1256967486051 11,
  r 4598417696768 23 4452762609019 12 6525804586632 12,
  r 5674189533175 23 9879680872193 13 5729506548653 12,
  r 4073560328195 23 5939127696986 12 7632943190217 12,
  r 5040994945359 23 4549875824510 12 8031092209206 12,
  r 5078185134679 23 7346659893982 13 7477522907414 12,
  r 3769343537061 23 1071317188367 12 7234794171227 12,
  r 4980331365299 23 2500345341784 12 6836645152238 12,
  r 3458236594757 23 3825159450711 12 1097707878456 11,
  r 3578859493602 23 5299664791549 12 4164311961999 12,
  r 3370504646419 23 5002316301593 12 1137170464392 11,
  r 3299873338428 23 2526123275282 12 3930209696940 12,
  r 4304917318409 23 3368078557132 12 1592596075957 12,
  r 3402418753455 23 8385495425800 13 3128388763578 12,
  r 2778460572146 23 3669905203240 12 7342457794669 12,
  r 2782710128902 23 2691664812170 13 1748016358760 12,
  r 2711725179646 23 4707487217718 12 5296909721118 13,
  r 2981760946340 23 3190260867816 13 5368044267797 13,
  r 2811672977772 23 3196532315372 12 7084896783808 12,
  r 2863454474467 23 2263240324780 13 5223693906222 12,
  r 3333464634051 23 3498451685065 12 8018209333619 13,
  r 3312991747609 23 5839154477412 12 1554202828031 13,
  r 2813255564006 23 8268044346621 13 5225775174439 13,
  r 2665098083966 23 3934021725360 12 5216580451554 12,
  r 2349795705216 23 5197620913779 12 2146165377750 12,
  r 2330352293961 23 2984999231807 12 1726015463500 11,
  r 2728001683419 23 6521679638544 13 8635942003952 12,
  r 2484061007669 23 3468955561097 12 5230807360890 12,
  r 2646328768427 23 1013724533516 12 2629832328990 14,
  r 2518630264831 23 6108081057122 12 5481254917084 12,
  r 2421901455384 23 1651097776260 12 1349867339771 12,
  r 6348533267831 24 3220226560321 12 8433466158131 11]

/-- `E1(·,·,3)`: 12 terms. -/
def E1Z : List (Dec × Dec × Dec) := [
  r 2278290449966 18 3413716033863 12 6283075850446 12,
  r 5429458209830 20 0 13 0 13,
  r 1903240492525 20 3370592358297 12 1256615170089 11,
  r 2385409276743 22 3327914718416 12 1884922755134 11,
  r 8676928342573 23 1824006811264 12 5223693906222 12,
  r 7765442593544 23 3888564279247 12 5507553240374 12,
  r 7066158332715 23 5194267231944 12 2352866153506 12,
  r 7092175288657 23 2333246960021 12 8399684731857 11,
  r 5357582213535 23 2224031176619 12 5296909721118 13,
  r 3828035865021 23 2156710933584 12 6279552690824 12,
  r 3824857220427 23 1529755219915 12 6286599010068 12,
  r 3286995181628 23 4879512900483 12 1021328554739 11]

/-- `E2(·,·,1)`: 5 terms. -/
def E2X : List (Dec × Dec × Dec) := [
  r (-4143818297913) 23 0 13 0 13,
  r 2171497694435 23 4398225628264 12 1256615170089 11,
  r 9845398442516 24 2079720838384 13 6283075850446 12,
  r 9256833552682 25 4191264694361 12 1884922755134 11,
  r 1022049384115 25 5381133195658 12 8399684731857 11]

/-- `E2(·,·,2)`: 5 terms. -/
def E2Y : List (Dec × Dec × Dec) := [
  r 5063375872532 23 0 13 0 13,
  r 2173815785980 23 2827805833053 12 1256615170089 11,
  r 1010231999920 23 4634612377133 12 6283075850446 12,
  r 9259745317636 25 2620612076189 12 1884922755134 11,
  r 1022202095812 25 3809562326066 12 8399684731857 11]

/-- `E2(·,·,3)`: 3 terms. -/
def E2Z : List (Dec × Dec × Dec) := [
  r 9722666114891 23 5152219582658 12 6283075850446 12,
  r (-3494819171909) 24 0 13 0 13,
  r 6713034376076 25 6440188750495 13 1256615170089 11]

/-- `S0(·,·,1)`: 212 terms. -/
def S0X : List (Dec × Dec × Dec) := [
  r 4956757536410 15 3741073751789 12 5296909721118 13,
  r 2718490072522 15 4016011511425 12 2132990797783 13,
  r 1546493974344 15 2170528330642 12 3813291813120 14,
  r 8366855276341 16 2339614075294 12 7478166569050 14,
  r 2936777942117 16 0 13 0 13,
  r 1201317439469 16 4090736353305 12 1059381944224 12,
  r 7578550887230 17 3241518088140 12 4265981595566 13,
  r 1941787367773 17 1012202064330 12 2061856251104 13,
  r 1889227765991 17 3892520416440 12 2204125344462 13,
  r 1937896968613 17 4797779441161 12 1495633313810 13,
  r 1434506110873 17 3868960697933 12 5225775174439 13,
  r 1406659911580 17 4759766557397 13 5368044267797 13,
  r 1179022300202 17 7774961520598 13 7626583626240 14,
  r 8085864460959 18 3254654471465 12 3664874755930 14,
  r 7622752967615 18 4227633103489 12 3961708870310 14,
  r 6209171139066 18 2791828325711 13 7329749511860 14,
  r 4366435633970 18 4440454875925 12 1589072916335 12,
  r 3792124889348 18 5156393842356 12 7113454667900 15,
  r 3154548963402 18 6157005730093 12 4194847048887 13,
  r 3088359882942 18 2494567553163 12 6398972393349 13,
  r 2788440902136 18 4934318747989 12 1102062672231 13,
  r 3039928456376 18 4895077702640 12 6283075850446 12,
  r 2272258457679 18 5278394064764 12 1030928125552 13,
  r 2162007057957 18 5802978019099 12 3163918923335 13,
  r 1767632855737 18 3415346595193 14 1021328554739 11,
  r 1349413459362 18 2001643230755 12 1484170571900 15,
  r 1170141900476 18 2424750491620 12 6327837846670 13,
  r 1054355266820 18 3123311487576 12 4337116142245 13,
  r 9800822461610 19 3026258088130 12 1052268489556 12,
  r 1091203749931 18 3157811670347 12 1162474756779 12,
  r 6960236715913 19 8219570542313 13 1066495398892 12,
  r 5689257296909 19 1323052375236 12 9491756770005 13,
  r 6613172135802 19 2765348881598 13 8460828644453 13,
  r 6277702517571 19 5794064466382 12 1480791608091 13,
  r 6304884066699 19 7323555380787 13 2243449970715 13,
  r 4897850467382 19 3062464235399 12 3340612434717 12,
  r 3759148598786 19 4588290469664 12 3516457698740 14,
  r 3110520548195 19 1374299536572 12 6373574839730 14,
  r 3064708359780 19 4222267485047 12 1104591729320 14,
  r 2856347168241 19 3714202944973 12 1510475019529 13,
  r 2840945514288 19 2847972875882 12 4110125927500 14,
  r 2378951599405 19 3762072563388 12 2275259891141 13,
  r 2714229481417 19 1036049980031 12 2535050500000 14,
  r 2323551717307 19 4682388599076 13 8582758298370 14,
  r 1881790512219 19 4790565425418 12 2118763888447 12,
  r 2261353968371 19 1669144912212 12 7181332454670 14,
  r 2214546389848 19 3937717281614 12 2968341143800 15,
  r 2184915594933 19 1129169845099 13 7775000683430 14,
  r 2000164937936 19 4030009638488 12 2093666171530 13,
  r 1966105136719 19 8745955786834 13 2172315424036 13,
  r 1904742332624 19 5919743598964 12 2022531624851 13,
  r 1657399705031 19 2549141484884 12 7358765972222 13,
  r 1574070533987 19 5277533020230 12 7429900518901 13,
  r 1832261651039 19 3064688127777 12 3235053470014 13,
  r 1733615346569 19 3011432799094 12 1385174140878 13,
  r 1549124014496 19 4005569132359 12 5154640627760 13,
  r 1637044713838 19 1831375966632 12 8531963191132 13,
  r 1123420082383 19 1180270407578 12 1990721704425 13,
  r 1083754165740 19 3414101320863 13 5439178814476 13,
  r 1156638012655 19 6130479452594 13 5257585094865 13,
  r 1142548785134 19 3724761948846 12 5336234347371 13,
  r 7921463895965 20 2435425589361 12 1478866649112 12,
  r 7428600285231 20 3542144398753 12 2164800718209 13,
  r 8323211246747 20 3525058072354 12 1692165728891 12,
  r 7257595116312 20 1364299431982 12 2101180877357 13,
  r 7111185833236 20 2460478875808 12 4155522422634 13,
  r 6868090383716 20 4397327670704 12 1173197218910 13,
  r 7226419974175 20 4042647308905 12 1265567569334 12,
  r 6955642383177 20 2865047906085 12 9562891316684 13,
  r 7492139296331 20 5014278994215 12 1422690933580 14,
  r 6598363128857 20 2376730020492 12 6470106940028 13,
  r 7381147293385 20 3272990384244 12 1581959461667 12,
  r 6402909624032 20 5302290955138 12 9597935788730 14,
  r 6237454263857 20 5444144425332 12 7084920306520 14,
  r 5241198544016 20 4215359579205 12 5265099800692 13,
  r 5144463853918 20 1218916689916 13 5328719641544 13,
  r 5868164772299 20 2369402002213 12 7871412831580 14,
  r 6233195669151 20 1254922242403 12 2608790314060 11,
  r 6068463791422 20 5679713760431 12 1114304132498 13,
  r 4359361135065 20 6097219641646 13 1375773836557 12,
  r 4686510366826 20 4786231041431 12 1143987543936 13,
  r 3758977287225 20 1167368068139 12 1596186371003 12,
  r 4282051974778 20 1519471064319 12 2770348281756 13,
  r 5153765386113 20 1860532322984 12 2228608264996 13,
  r 4575129387188 20 7632857887158 13 1465949902372 13,
  r 3326844933286 20 1298219485285 12 5070101000000 14,
  r 3748617450984 20 1046510321062 12 4903339079539 13,
  r 2816756661499 20 3434522346190 12 2991266627620 13,
  r 3412750405039 20 2523766270318 12 3518164938661 13,
  r 2655796761776 20 2904422260194 12 6256703299991 13,
  r 2963597929458 20 5923900431149 13 1099462426779 13,
  r 2539523734781 20 4851947722567 12 1256615170089 11,
  r 2283087914139 20 3400498595496 12 6681224869435 12,
  r 2321309799331 20 5789099148673 12 3368040641550 14,
  r 2549657649750 20 3991856479792 14 1169588211447 12,
  r 2290462303977 20 2788567577052 12 1045155034888 12,
  r 1945398522914 20 3290896998176 12 1155361302111 12,
  r 1849171512638 20 2698060129367 12 4452511715700 15,
  r 1647199834254 20 3016735644085 12 4408250688924 13,
  r 1529530765273 20 5573043116178 12 6521991896920 14,
  r 1433199339978 20 1481192356147 12 9420622223326 13,
  r 1729134193602 20 1422817538933 12 2108507877249 13,
  r 1716463931346 20 3469468901855 12 2157473718317 13,
  r 1391206061378 20 6122436220547 12 4123712502208 13,
  r 1404746661924 20 1647765641936 12 4258542984690 14,
  r 1410452399455 20 5989729161964 12 2258291676434 13,
  r 1089828772168 20 2833705509371 12 4226656969313 13,
  r 1047374564948 20 5090690007331 13 3092784376656 13,
  r 1358279126532 20 5128990262836 12 7923417740620 14,
  r 1020456476148 20 9632772880808 13 1456308687557 13,
  r 1033428735328 20 3223779318418 12 1795258541446 12,
  r 1412435841540 20 2410271572721 12 1525316725248 13,
  r 9722759371574 21 2333531395690 12 8434341241180 14,
  r 9657334084704 21 6199270974168 12 1272681024002 12,
  r 1083641148690 20 2864222292929 12 7032915397480 14,
  r 1067318403838 20 5833458866568 13 2123349582968 13,
  r 1062366201976 20 4307753989494 12 2142632012598 13,
  r 1236364149266 20 2873917870593 12 1847279083684 13,
  r 1092759489593 20 2959887266733 12 1370332435159 13,
  r 8912069362899 21 5141213702562 12 2648454860559 12,
  r 9656467707970 21 4532182462323 12 4376440768498 13,
  r 8098386150135 21 2268906338379 12 2880807454688 13,
  r 7857714675000 21 4055544260745 12 2037373330570 13,
  r 7288455940646 21 5357901655142 12 1129145838217 13,
  r 9450595950552 21 4264926963939 12 5272426800584 13,
  r 9381718247537 21 7489366976576 14 5321392641652 13,
  r 7079052646038 21 1923311052874 12 6288513220417 13,
  r 9259004415344 21 2970256853438 12 1606092486742 13,
  r 8259801499742 21 3327056314697 12 8389694097774 13,
  r 6476334355779 21 2954925505727 12 2008557621224 12,
  r 5984021492007 21 9138753105829 13 2042657109477 11,
  r 5989546863181 21 3244464082031 12 2111650433779 12,
  r 6233108606023 21 4995232638403 13 4305306221819 13,
  r 6877299149965 21 2834987233449 12 9561746721300 15,
  r 8311234227190 21 2202951835758 12 3801276407308 13,
  r 6599472832414 21 4478581462618 12 1063314406849 12,
  r 6160491096549 21 5145858696411 12 1368660381889 12,
  r 6164772043891 21 3762976697911 13 4234171675140 13,
  r 6363248684450 21 3162246718685 12 1253008786510 14,
  r 6448587520999 21 3442693302119 12 5287268506303 13,
  r 6431662283977 21 8977549136606 13 5306550935933 13,
  r 6351223158474 21 4306447410369 12 5217580628120 11,
  r 5476721393451 21 3888529177855 12 2221856701002 12,
  r 5341772572619 21 2655560662512 12 7466759693650 14,
  r 5337055758302 21 5164990735946 12 7489573444450 14,
  r 5373120816787 21 6041214553456 12 1274714967946 13,
  r 5392351705426 21 9177763485932 13 1055449481598 12,
  r 6688495850205 21 3089608126937 12 2213766559277 13,
  r 5072003660362 21 4311316541553 12 2132517061319 13,
  r 5070726650455 21 5790675464444 13 2133464534247 13,
  r 5658012950032 21 2703945510675 12 7287631425543 13,
  r 4835509924854 21 2975422976065 12 7160067364790 14,
  r 6479821978012 21 1324168733114 12 2209183458640 14,
  r 6230636494980 21 2860103632836 12 3306188016693 13,
  r 4649239516213 21 4832259763403 12 7796265773310 14,
  r 6487325792700 21 2726165825042 12 3884652414254 13,
  r 4682823682770 21 6966602455408 13 1073608853559 12,
  r 5704230804976 21 5669634104606 12 8731175355560 14,
  r 6125413585489 21 1513386538915 12 7605151500000 14,
  r 6035825038187 21 1983509168227 12 9846002785331 13,
  r 4331123462303 21 2782892992807 12 4297791515992 13,
  r 4681107685143 21 5337232886836 12 2127790306879 13,
  r 4669105829655 21 5837133792160 12 2138191288687 13,
  r 5138823602365 21 3080560200507 12 7233337363710 14,
  r 4615856664534 21 1661747897471 12 8603097737811 13,
  r 4496916702197 21 2112508027068 12 7381754420900 14,
  r 4278479042945 21 5716528462627 12 7574578717200 14,
  r 3840525503932 21 6424172726492 13 3407705765729 13,
  r 4866636509685 21 4919244697715 12 7722995774390 14,
  r 3526100639296 21 2550821052734 12 6225157782540 14,
  r 3939558488075 21 3939331491710 12 5268983110410 14,
  r 4041268772576 21 2275337571218 12 3503323232942 13,
  r 3948761842853 21 1999324200790 12 1451108196653 13,
  r 3258394550029 21 9121001378200 13 5296435984654 13,
  r 3257897048761 21 3428428660869 12 5297383457582 13,
  r 3842559031298 21 6132927720035 12 9098186128426 13,
  r 3109920095448 21 7693650193003 13 3932462625300 15,
  r 3132237775119 21 3621293854908 12 2346394437820 13,
  r 3942189421510 21 4841863659733 12 3180992042600 15,
  r 3796972285340 21 1814174994268 12 1862120789403 13,
  r 3995640233688 21 1386990406091 12 4549093064213 13,
  r 2875013727414 21 9178318587177 13 1905464808669 12,
  r 3073719932844 21 2688923811835 12 3628624111593 13,
  r 2731016580075 21 1188259127584 12 2131850110243 13,
  r 2729549896546 21 3702160634273 12 2134131485323 13,
  r 3339372892449 21 7199163960331 13 2007689919132 13,
  r 2898833764204 21 1916709364999 12 5291709230214 13,
  r 2894536549362 21 2424043195547 12 5302110212022 13,
  r 3096872473843 21 4445894977497 12 2976424921901 13,
  r 2635672326810 21 3814366984117 12 1485980103780 12,
  r 3649302697001 21 2924200596084 12 6044726378023 13,
  r 3127954585895 21 1842251648327 12 1084620721060 13,
  r 2616040173947 21 4155841921984 12 1258454114666 12,
  r 2597395859860 21 1158045978874 13 2103781122809 13,
  r 2593286172210 21 4771850408691 12 2162200472757 13,
  r 2481823585747 21 4608842558889 13 1062562936266 12,
  r 2742219550725 21 1538781127028 12 5651155736444 13,
  r 3199558469610 21 3226647822878 13 7036329877322 13,
  r 2666088542957 21 1967991731219 13 1400015846597 13,
  r 2397067430580 21 3707036669873 12 2125476091956 13,
  r 2376570772738 21 1182086628042 12 2140505503610 13,
  r 2547228007887 21 4906256820629 12 1534957940063 13,
  r 2265575594114 21 3414949866857 12 2235935264888 13,
  r 2464381430585 21 4599122275378 12 2091065926078 13,
  r 2433408527044 21 2830751145445 13 2174915669488 13,
  r 2443605509076 21 4212046432538 12 1739420156204 13,
  r 2319779262465 21 9881978408630 13 7530171478090 14,
  r 2284622835465 21 5565347331588 13 7426161660010 14,
  r 2467268750783 21 5655708150766 13 2526561439362 13,
  r 2808513492782 21 1418405053408 12 5636314030725 13,
  r 2329528932532 21 4069557545675 12 1056200952181 12,
  r 9698639532817 22 1074134313634 12 7826370942180 11]

/-- `S0(·,·,2)`: 213 terms. -/
def S0Y : List (Dec × Dec × Dec) := [
  r 4955392320126 15 2170467313679 12 5296909721118 13,
  r 2722325167392 15 2444433682196 12 2132990797783 13,
  r 1546579925346 15 5992779281546 13 3813291813120 14,
  r 8363140252966 16 7687356310801 13 7478166569050 14,
  r 3385792683603 16 0 13 0 13,
  r 1201192221613 16 2520035601514 12 1059381944224 12,
  r 7587125720554 17 1669954006449 12 4265981595566 13,
  r 1964155361250 17 5707743963343 12 2061856251104 13,
  r 1891900364909 17 2320960679937 12 2204125344462 13,
  r 1937373433356 17 3226940689555 12 1495633313810 13,
  r 1437139941351 17 2301626908096 12 5225775174439 13,
  r 1406267683099 17 5188579265542 12 5368044267797 13,
  r 1178703080346 17 5489483248476 12 7626583626240 14,
  r 8079835186041 18 1683751835264 12 3664874755930 14,
  r 7623253594652 18 2656400462961 12 3961708870310 14,
  r 6248667483971 18 4992775362055 12 7329749511860 14,
  r 4366353695038 18 2869706279678 12 1589072916335 12,
  r 3829101568895 18 3572131359950 12 7113454667900 15,
  r 3175733773908 18 4535372530045 12 4194847048887 13,
  r 3092437902159 18 9230153317909 13 6398972393349 13,
  r 2874168812154 18 3363143761101 12 1102062672231 13,
  r 3040119321826 18 3324250895675 12 6283075850446 12,
  r 2699723308006 18 2917882441928 13 1030928125552 13,
  r 2134832683534 18 4220997202487 12 3163918923335 13,
  r 1770412139433 18 4747318496462 12 1021328554739 11,
  r 1377264209373 18 4305058462401 13 1484170571900 15,
  r 1127814538960 18 8538177240740 13 6327837846670 13,
  r 1055608090130 18 1551800742580 12 4337116142245 13,
  r 9802673861420 19 1459646735377 12 1052268489556 12,
  r 1090329461951 18 1587351228711 12 1162474756779 12,
  r 6959590025090 19 5534442628766 12 1066495398892 12,
  r 5664914529542 19 6030673003297 12 9491756770005 13,
  r 6607787763599 19 4989507233927 12 8460828644453 13,
  r 6269725742838 19 4222951804572 12 1480791608091 13,
  r 6301889697863 19 5444316669126 12 2243449970715 13,
  r 4891042662861 19 1490552839784 12 3340612434717 12,
  r 3457083123290 19 3030475486049 12 3516457698740 14,
  r 3032559967314 19 2652038793632 12 1104591729320 14,
  r 2841133988903 19 1276744786829 12 4110125927500 14,
  r 2855564444432 19 2143368674733 12 1510475019529 13,
  r 2765157135038 19 5444186109077 12 6373574839730 14,
  r 2382312465034 19 2190521137593 12 2275259891141 13,
  r 2808060365077 19 5735195064841 12 2535050500000 14,
  r 2332175234405 19 9481985524859 14 7181332454670 14,
  r 2322488199659 19 5180499361533 12 8582758298370 14,
  r 1881850258423 19 3219788273885 12 2118763888447 12,
  r 2196111392808 19 2366941159761 12 2968341143800 15,
  r 2183810335519 19 4825445110915 12 7775000683430 14,
  r 2002733093326 19 2457148995307 12 2093666171530 13,
  r 1967111767229 19 5586291545459 12 2172315424036 13,
  r 1568473250543 19 3708003123320 12 7429900518901 13,
  r 1852528314300 19 4310638151560 12 2022531624851 13,
  r 1832111226447 19 1494665322656 12 3235053470014 13,
  r 1746805502310 19 1451378500784 12 1385174140878 13,
  r 1555730966650 19 1068040418198 12 7358765972222 13,
  r 1554883462559 19 2442579035461 12 5154640627760 13,
  r 1638380568746 19 2597913420625 13 8531963191132 13,
  r 1159938593640 19 5834512021280 12 1990721704425 13,
  r 1083427965695 19 5054033177950 12 5439178814476 13,
  r 1156480369431 19 5325677432457 12 5257585094865 13,
  r 1141308860095 19 2153403923857 12 5336234347371 13,
  r 7913146470946 20 8642846847027 13 1478866649112 12,
  r 7439752463733 20 1970628496213 12 2164800718209 13,
  r 7280277104079 20 6073307250609 12 2101180877357 13,
  r 8319567719136 20 1954371928334 12 1692165728891 12,
  r 7137705549290 20 8904989440909 13 4155522422634 13,
  r 6900825396225 20 2825717714977 12 1173197218910 13,
  r 7245757216635 20 2481677513331 12 1265567569334 12,
  r 6961165696255 20 1292955312978 12 9562891316684 13,
  r 7571804456890 20 3427517575069 12 1422690933580 14,
  r 6605425721904 20 8052192701492 13 6470106940028 13,
  r 7375477357248 20 1705076390088 12 1581959461667 12,
  r 7041664951470 20 4848356967891 13 9597935788730 14,
  r 6322199535763 20 3878069473909 12 7084920306520 14,
  r 5244380279191 20 2645560544125 12 5265099800692 13,
  r 5143125704988 20 4834486101370 12 5328719641544 13,
  r 5871866319373 20 7981472548900 13 7871412831580 14,
  r 6300822573871 20 5979398788281 12 2608790314060 11,
  r 6062154271548 20 4108655402756 12 1114304132498 13,
  r 4361912339976 20 5322624319280 12 1375773836557 12,
  r 4417005920067 20 6240817359284 12 2770348281756 13,
  r 4686806749936 20 3214977301156 12 1143987543936 13,
  r 3758892132305 20 5879809634765 12 1596186371003 12,
  r 5151351332319 20 2893377688007 13 2228608264996 13,
  r 4554683578572 20 5475427144122 12 1465949902372 13,
  r 3442381385338 20 5992034796640 12 5070101000000 14,
  r 2831093954933 20 5367350273914 12 3092784376656 13,
  r 3756267090084 20 5758171285420 12 4903339079539 13,
  r 2816374679892 20 1863718700923 12 2991266627620 13,
  r 3419307025569 20 9524347534130 13 3518164938661 13,
  r 2904250494239 20 5304471615602 12 1099462426779 13,
  r 2471734511206 20 1297069793530 12 6256703299991 13,
  r 2539620831872 20 3281126083375 12 1256615170089 11,
  r 2281017868007 20 1829122133165 12 6681224869435 12,
  r 2275319473335 20 5797198160181 12 3932462625300 15,
  r 2547755368442 20 4752697708330 12 1169588211447 12,
  r 2285979669317 20 1223205292886 12 1045155034888 12,
  r 1913386560994 20 1757532993389 12 1155361302111 12,
  r 1809020525147 20 4246116108791 12 3368040641550 14,
  r 1649213300201 20 1445162890627 12 4408250688924 13,
  r 1834972793932 20 1126917567225 12 4452511715700 15,
  r 1439550648138 20 6160756834764 12 9420622223326 13,
  r 1487645457041 20 4358761931792 12 4123712502208 13,
  r 1731729516660 20 6134456753344 12 2108507877249 13,
  r 1717747163567 20 1898186084455 12 2157473718317 13,
  r 1418190430374 20 4180286741266 12 6521991896920 14,
  r 1404844134873 20 7654053565412 14 4258542984690 14,
  r 1409842846538 20 4418612420312 12 2258291676434 13,
  r 1090948346291 20 1260615686131 12 4226656969313 13,
  r 1357577323612 20 3558248818690 12 7923417740620 14,
  r 1018154061960 20 5676087241256 12 1456308687557 13,
  r 1412073972109 20 8394392632422 13 1525316725248 13,
  r 1030938326496 20 1653593274064 12 1795258541446 12,
  r 1180081567104 20 1285802592036 12 7032915397480 14,
  r 9708510575650 21 7631889488106 13 8434341241180 14,
  r 9637689663447 21 4630642649176 12 1272681024002 12,
  r 1068910429389 20 5294934032165 12 2123349582968 13,
  r 1063716179336 20 2736266800832 12 2142632012598 13,
  r 1234858713814 20 1302891146570 12 1847279083684 13,
  r 8912631189738 21 3570415993621 12 2648454860559 12,
  r 1036378285534 20 4236693440949 12 1370332435159 13,
  r 9667798501561 21 2960768892398 12 4376440768498 13,
  r 8108314201902 21 6987781646841 13 2880807454688 13,
  r 7648364324628 21 2499017863863 12 2037373330570 13,
  r 7286136828406 21 3787426951665 12 1129145838217 13,
  r 9448237743913 21 2694354332983 12 5272426800584 13,
  r 9374276106428 21 4787121277064 12 5321392641652 13,
  r 7100226287462 21 3530238792101 13 6288513220417 13,
  r 9253056659571 21 1399478925664 12 1606092486742 13,
  r 6636432145504 21 3479575438447 12 1368660381889 12,
  r 6469975312932 21 1383669964800 12 2008557621224 12,
  r 7335849729765 21 1243698166898 12 9561746721300 15,
  r 8743421205855 21 3776164289301 12 3801276407308 13,
  r 5993635744494 21 5627122113596 12 2042657109477 11,
  r 5981008479693 21 1674336636752 12 2111650433779 12,
  r 6188535145838 21 5214925208672 12 4305306221819 13,
  r 6596074017566 21 2907653268124 12 1063314406849 12,
  r 6630815126226 21 2127643669658 12 8389694097774 13,
  r 6156772830040 21 5082160803295 12 4234171675140 13,
  r 6446960563014 21 1872100916905 12 5287268506303 13,
  r 6429324424668 21 5610276103577 12 5306550935933 13,
  r 6302232396465 21 1592152049607 12 1253008786510 14,
  r 6399244436159 21 2746214421532 12 5217580628120 11,
  r 5474965172558 21 2317666374383 12 2221856701002 12,
  r 5339293190692 21 1084724961156 12 7466759693650 14,
  r 5334733683389 21 3594106067745 12 7489573444450 14,
  r 5392665782110 21 5630254365606 12 1055449481598 12,
  r 6682075673789 21 1518480041732 12 2213766559277 13,
  r 5079130495960 21 2739765115711 12 2132517061319 13,
  r 5077759793261 21 5290711290094 12 2133464534247 13,
  r 4832037368310 21 1404473217200 12 7160067364790 14,
  r 6463279674802 21 6038381695210 12 2209183458640 14,
  r 6240592771560 21 1290170653666 12 3306188016693 13,
  r 4672013521493 21 3261895939677 12 7796265773310 14,
  r 6500650750348 21 1154522312095 12 3884652414254 13,
  r 6344161389053 21 6206111545062 12 7605151500000 14,
  r 4682518370646 21 5409118796685 12 1073608853559 12,
  r 5329460015591 21 1202985784864 12 7287631425543 13,
  r 5701588675898 21 4098715257064 12 8731175355560 14,
  r 6030690867211 21 4132033218460 13 9846002785331 13,
  r 4336256312655 21 1211415991827 12 4297791515992 13,
  r 4688498808975 21 3765479072409 12 2127790306879 13,
  r 4675578609335 21 4265540037226 12 2138191288687 13,
  r 4225578112158 21 5237566010676 12 3407705765729 13,
  r 5139422230028 21 1507173079513 12 7233337363710 14,
  r 4619995093571 21 9023957449848 14 8603097737811 13,
  r 4494776255461 21 5414930552139 13 7381754420900 14,
  r 4274026276788 21 4145735303659 12 7574578717200 14,
  r 5018141789353 21 3344408829055 12 3180992042600 15,
  r 4866163952181 21 3348534657607 12 7722995774390 14,
  r 4111986020501 21 4198823597220 13 1451108196653 13,
  r 3356142784950 21 5609144747180 12 1274714967946 13,
  r 4070575554551 21 7028411059224 13 3503323232942 13,
  r 3257451857278 21 5624697983086 12 5296435984654 13,
  r 3256973703026 21 1857842076707 12 5297383457582 13,
  r 3830771508640 21 4562887279931 12 9098186128426 13,
  r 3725024005962 21 2358058692652 13 1084620721060 13,
  r 3136763921756 21 2049731526845 12 2346394437820 13,
  r 3795147256194 21 2432356296933 13 1862120789403 13,
  r 2877342229911 21 5631101279387 12 1905464808669 12,
  r 3076931798805 21 1117615737392 12 3628624111593 13,
  r 2734765945273 21 5899826516955 12 2131850110243 13,
  r 2733405296885 21 2130562964070 12 2134131485323 13,
  r 2898552353410 21 3462387048225 13 5291709230214 13,
  r 2893736103681 21 8534352781543 13 5302110212022 13,
  r 3095717734137 21 2875061429041 12 2976424921901 13,
  r 2636190425832 21 2242512846659 12 1485980103780 12,
  r 3645512095537 21 1354016903958 12 6044726378023 13,
  r 2808173547723 21 6705114365631 14 6225157782540 14,
  r 2625012866888 21 4775705748482 12 5268983110410 14,
  r 2572233995651 21 2638924216139 12 1258454114666 12,
  r 2604238824792 21 4826358927373 12 2103781122809 13,
  r 2596886385239 21 3200388483118 12 2162200472757 13,
  r 3228057304264 21 5384848409563 12 2007689919132 13,
  r 2481601798252 21 5173373487744 12 1062562936266 12,
  r 2745977498864 21 6250966149853 12 5651155736444 13,
  r 2669878833811 21 4906001352499 12 1400015846597 13,
  r 3203986611711 21 5034333010005 12 7036329877322 13,
  r 3354961227212 21 6108262423137 12 4549093064213 13,
  r 2400407324558 21 2135399294955 12 2125476091956 13,
  r 2379905859802 21 5893721933961 12 2140505503610 13,
  r 2550844302187 21 3331940762063 12 1534957940063 13,
  r 2268824211001 21 1843418461035 12 2235935264888 13,
  r 2464700891204 21 3029548547230 12 2091065926078 13,
  r 2436814726024 21 4994717970364 12 2174915669488 13,
  r 2443623894745 21 2645102591375 12 1739420156204 13,
  r 2318701783838 21 5700547397897 12 7530171478090 14,
  r 2284448700256 21 5268898905872 12 7426161660010 14,
  r 2468848123510 21 5276280575078 12 2526561439362 13,
  r 2814052350303 21 6130168623475 12 5636314030725 13,
  r 2243662755220 21 6631692457995 13 8886590321940 14,
  r 2330795855941 21 2499435487702 12 1056200952181 12,
  r 9757679038404 22 5796846023126 12 7826370942180 11]

/-- `S0(·,·,3)`: 69 terms. -/
def S0Z : List (Dec × Dec × Dec) := [
  r 1181255122986 16 4607918989164 13 2132990797783 13,
  r 1127777651095 16 4169146331296 13 5296909721118 13,
  r 4777754401806 17 4582657007130 12 3813291813120 14,
  r 1129354285772 17 5758735142480 12 7478166569050 14,
  r (-1149543637123) 17 0 13 0 13,
  r 3298730512306 18 5978801994625 12 4265981595566 13,
  r 2733376706079 18 7665413691040 13 1059381944224 12,
  r 9426389657270 19 3710201265838 12 2061856251104 13,
  r 8187517749552 19 3390675605802 13 2204125344462 13,
  r 4080447871819 19 4552296640088 13 5225775174439 13,
  r 3169973017028 19 3445455899321 12 5368044267797 13,
  r 2438098615549 19 5664675150648 12 3664874755930 14,
  r 2601897517235 19 1931894095697 12 1495633313810 13,
  r 2314558080079 19 3666319115574 13 3961708870310 14,
  r 1962549548002 19 3167411699020 12 7626583626240 14,
  r 2180518287925 19 1544420746580 12 7113454667900 15,
  r 1451382442868 19 1583756740070 12 1102062672231 13,
  r 1358439007389 19 5239941758280 12 6398972393349 13,
  r 1050585898028 19 2266958352859 12 3163918923335 13,
  r 1050029870186 19 2711495250354 12 4194847048887 13,
  r 9934920679800 20 1116208151396 12 1589072916335 12,
  r 1048395331560 19 3408619600206 12 1021328554739 11,
  r 8370147196668 20 3810459401087 12 2535050500000 14,
  r 7989856510998 20 3769910473647 12 7329749511860 14,
  r 5441221655233 20 2416994903374 12 1030928125552 13,
  r 4610812906784 20 5858503336994 12 4337116142245 13,
  r 3923022803444 20 3354170010125 13 1484170571900 15,
  r 2610725582128 20 5410600646324 12 6327837846670 13,
  r 2455279767721 20 6120216681403 12 1162474756779 12,
  r 2375530706525 20 6055443426143 12 1052268489556 12,
  r 1782967577553 20 3146108708004 12 8460828644453 13,
  r 1581687095238 20 6255496089819 13 3340612434717 12,
  r 1594657672461 20 3782604300261 12 1066495398892 12,
  r 1563448615040 20 1997775733196 12 2022531624851 13,
  r 1463624258525 20 1736316792088 13 3516457698740 14,
  r 1331585056673 20 4331941830747 12 9491756770005 13,
  r 1130634557637 20 6152017751825 12 2968341143800 15,
  r 1028949607145 20 2101792614637 13 2275259891141 13,
  r 1024074971618 20 4071833211074 12 5070101000000 14,
  r 8826956060303 21 4861633688145 13 2093666171530 13,
  r 8572230171541 21 5268190724302 12 4110125927500 14,
  r 7649332643544 21 5134543417106 12 2608790314060 11,
  r 8581673291033 21 2920218146681 12 1480791608091 13,
  r 8430589300938 21 3604576619108 12 2172315424036 13,
  r 7776165501012 21 3772942249792 12 6373574839730 14,
  r 8311070234408 21 6200412329888 12 3235053470014 13,
  r 6927365212582 21 4543353113437 12 8531963191132 13,
  r 6791574208598 21 2882188406238 12 7181332454670 14,
  r 5593100811839 21 1776646892780 12 7429900518901 13,
  r 4553381853021 21 3949617611240 12 7775000683430 14,
  r 5758000450068 21 3859251775075 12 1990721704425 13,
  r 4281283457133 21 1466294631206 12 2118763888447 12,
  r 4206935661097 21 5421776011706 12 1104591729320 14,
  r 4213751641837 21 3412048993322 12 2243449970715 13,
  r 5310506239878 21 5421641370995 13 5154640627760 13,
  r 3827450341320 21 8887314524995 13 1510475019529 13,
  r 4292435241187 21 1405043757194 12 1422690933580 14,
  r 3189780702289 21 1060049293445 12 1173197218910 13,
  r 3226611928069 21 6270858897442 12 2164800718209 13,
  r 2893897608830 21 5117563223301 12 6470106940028 13,
  r 3239852024578 21 4079092237983 12 2101180877357 13,
  r 2956892222200 21 1594917021704 12 3092784376656 13,
  r 2980177912437 21 5258787667564 12 4155522422634 13,
  r 3163725690776 21 3854589225479 12 8582758298370 14,
  r 2662262399118 21 3561326430187 12 5257585094865 13,
  r 2766689135729 21 3180732086830 13 1385174140878 13,
  r 2411600278464 21 3324798335058 12 5439178814476 13,
  r 2483527695131 21 4169069291947 13 5336234347371 13,
  r 7788777276590 22 1900569908215 12 5217580628120 11]

/-- `S1(·,·,1)`: 50 terms. -/
def S1X : List (Dec × Dec × Dec) := [
  r (-1296310361520) 20 0 13 0 13,
  r 8975769009438 21 1128891609250 12 4265981595566 13,
  r 7771113441307 21 2706039877077 12 2061856251104 13,
  r 7538303866642 21 2191281289498 12 2204125344462 13,
  r 6061384579336 21 3248167319958 12 1059381944224 12,
  r 5726994235594 21 5569981398610 12 5225775174439 13,
  r 5616492836424 21 5057386614909 12 5368044267797 13,
  r 1010881584769 21 3473577116095 12 7113454667900 15,
  r 7259606157626 22 3651858593665 13 6398972393349 13,
  r 8755095026935 22 1662835408338 12 4194847048887 13,
  r 5370491182812 22 1327673878077 12 4337116142245 13,
  r 5743773887665 22 4250200846687 12 2132990797783 13,
  r 4408103140300 22 3598752574277 12 1589072916335 12,
  r 3101892374445 22 4887822983319 12 1052268489556 12,
  r 3209453713578 22 9702272295114 13 5296909721118 13,
  r 3017228286064 22 5484462275949 12 1066495398892 12,
  r 3200700038601 22 2846613338643 12 1495633313810 13,
  r 2137637279911 22 5692163292729 13 3163918923335 13,
  r 1899686386727 22 2061077157189 12 2275259891141 13,
  r 1401994545308 22 4177771136967 12 1102062672231 13,
  r 1578057810499 22 5782460597335 12 7626583626240 14,
  r 1237713253351 22 5705900866881 12 5154640627760 13,
  r 1313076837395 22 5163438179576 12 3664874755930 14,
  r 1184963304860 22 3054804427242 12 6327837846670 13,
  r 1238130878565 22 2317292575962 12 3961708870310 14,
  r 1015959527736 22 2194643645526 12 7329749511860 14,
  r 9017954423714 23 2868603545435 12 1990721704425 13,
  r 8668024955603 23 4923849675082 12 5439178814476 13,
  r 7756083930103 23 3014334135200 12 9491756770005 13,
  r 7536503401741 23 2704886279769 12 1030928125552 13,
  r 5483308679332 23 6010983673799 12 8531963191132 13,
  r 5184339620428 23 1952704573291 12 2093666171530 13,
  r 5108658712030 23 2958575786649 12 2172315424036 13,
  r 5019424524650 23 1736317621318 12 2164800718209 13,
  r 4909312625978 23 3167216416257 12 2101180877357 13,
  r 4456638901107 23 7697579923471 13 3235053470014 13,
  r 4227030350925 23 3490910137928 12 6373574839730 14,
  r 4095456040093 23 5178888984491 13 6470106940028 13,
  r 4990537041422 23 3323887668974 12 1422690933580 14,
  r 4321170010845 23 4288484987118 12 7358765972222 13,
  r 3544072091802 23 6021051579251 12 5265099800692 13,
  r 3480198638687 23 4600027054714 12 5328719641544 13,
  r 3440287244435 23 4349525970742 12 8582758298370 14,
  r 3330628322713 23 2347391505082 12 1104591729320 14,
  r 2973060707184 23 4789409286400 12 5257585094865 13,
  r 2932606766089 23 5831693799927 12 5336234347371 13,
  r 2876972310953 23 2692638514771 12 1173197218910 13,
  r 2827488278556 23 2056052487960 12 2022531624851 13,
  r 2515028239756 23 7411863262449 13 9597935788730 14,
  r 2853033744415 23 3948481024894 12 2118763888447 12]

/-- `S1(·,·,2)`: 50 terms. -/
def S1Y : List (Dec × Dec × Dec) := [
  r 8989047573576 21 5840593672122 12 4265981595566 13,
  r 7815938401048 21 1129664707133 12 2061856251104 13,
  r 7550926713280 21 6196589104845 13 2204125344462 13,
  r 6056556925895 21 1677494667846 12 1059381944224 12,
  r 5734142698204 21 4000920852962 12 5225775174439 13,
  r 5614341822459 21 3486722577328 12 5368044267797 13,
  r 1028678147656 21 1877141024787 12 7113454667900 15,
  r 7270792075266 22 5077167301739 12 6398972393349 13,
  r 8734141726040 22 9069550282609 14 4194847048887 13,
  r 5377371402113 22 6039381844671 12 4337116142245 13,
  r 4729719431571 22 2153086311760 12 2132990797783 13,
  r 4458052820973 22 5059830025565 12 5296909721118 13,
  r 4406855467908 22 2027971692630 12 1589072916335 12,
  r 3101659310977 22 3317677981860 12 1052268489556 12,
  r 3016749232545 22 3913703482532 12 1066495398892 12,
  r 3198541352656 22 1275513098525 12 1495633313810 13,
  r 2142065389871 22 5301351614597 12 3163918923335 13,
  r 1902615247592 22 4894943352736 13 2275259891141 13,
  r 1613410990871 22 2449891130437 12 1102062672231 13,
  r 1576992165097 22 4211421447633 12 7626583626240 14,
  r 1241637259894 22 4140803368133 12 5154640627760 13,
  r 1313974830355 22 3591920305503 12 3664874755930 14,
  r 1181697118258 22 1506314382788 12 6327837846670 13,
  r 1238239742779 22 7461405378404 13 3961708870310 14,
  r 1010107068241 22 6271010795475 13 7329749511860 14,
  r 9226316616509 23 1259158839583 12 1990721704425 13,
  r 8664946419555 23 3353244696934 12 5439178814476 13,
  r 7757230468978 23 1447677295196 12 9491756770005 13,
  r 7693168628139 23 1120509896721 12 1030928125552 13,
  r 5487897454612 23 4439380426795 12 8531963191132 13,
  r 5196118677218 23 3788856619137 13 2093666171530 13,
  r 5110853339935 23 1386879372016 12 2172315424036 13,
  r 5027804534813 23 1647881805466 13 2164800718209 13,
  r 4922485922674 23 1594315079862 12 2101180877357 13,
  r 6155599524400 23 0 13 0 13,
  r 4447147832161 23 5480720918976 12 3235053470014 13,
  r 4144691276422 23 1931371033660 12 6373574839730 14,
  r 4099950625452 23 5229611294335 12 6470106940028 13,
  r 5060541682953 23 1731112486298 12 1422690933580 14,
  r 4293615946300 23 2714571038925 12 7358765972222 13,
  r 3545659845763 23 4451041444634 12 5265099800692 13,
  r 3479112041196 23 3029385448081 12 5328719641544 13,
  r 3438516493570 23 2778507143731 12 8582758298370 14,
  r 3297341285033 23 7898709807584 13 1104591729320 14,
  r 2972585818015 23 3218785316973 12 5257585094865 13,
  r 2931707295017 23 4260731012098 12 5336234347371 13,
  r 2897198149403 23 1120753978101 12 1173197218910 13,
  r 2832293240878 23 4597682717827 13 2022531624851 13,
  r 2864348326612 23 2169939928448 12 9597935788730 14,
  r 2852714675471 23 2377659870578 12 2118763888447 12]

/-- `S1(·,·,3)`: 14 terms. -/
def S1Z : List (Dec × Dec × Dec) := [
  r 5444220475678 21 1803825509310 12 2132990797783 13,
  r 3883412695596 21 4668616389392 12 5296909721118 13,
  r 1334341434551 21 0 13 0 13,
  r 3730001266883 22 5401405918943 12 2061856251104 13,
  r 2894929197956 22 4932415609852 12 2204125344462 13,
  r 2857950357701 22 3154625362131 12 7478166569050 14,
  r 2499226432292 22 3657486128988 12 4265981595566 13,
  r 1937705443593 22 5740434679002 12 1059381944224 12,
  r 1374894396320 22 1712857366891 12 5368044267797 13,
  r 1217248678408 22 2312090870932 12 5225775174439 13,
  r 7961052740870 23 5283368554163 12 3813291813120 14,
  r 4979225949689 23 4298290471860 12 4194847048887 13,
  r 4388552286597 23 6145515047406 12 7113454667900 15,
  r 2586835212560 23 3019448001809 12 6398972393349 13]

/-- `S2(·,·,1)`: 9 terms. -/
def S2X : List (Dec × Dec × Dec) := [
  r 1603551636587 24 4404109410481 12 2061856251104 13,
  r 1556935889384 24 4818040873603 13 2204125344462 13,
  r 1182594414915 24 9935762734472 13 5225775174439 13,
  r 1158794583180 24 3353180966450 12 5368044267797 13,
  r 9597358943932 25 5567045358298 12 2132990797783 13,
  r 6511516579605 25 5630872420788 12 4265981595566 13,
  r 7419792747688 25 2156188581957 12 5296909721118 13,
  r 3951972655848 25 1981022541805 12 1059381944224 12,
  r 4478223877045 25 0 13 0 13]

/-- `S2(·,·,2)`: 9 terms. -/
def S2Y : List (Dec × Dec × Dec) := [
  r 1609114495091 24 2831096993481 12 2061856251104 13,
  r 1560330784946 24 5193058213906 12 2204125344462 13,
  r 1183535479202 24 5707003443890 12 5225775174439 13,
  r 1158183066182 24 1782400404928 12 5368044267797 13,
  r 1032868027407 24 4036925452011 12 2132990797783 13,
  r 6540142847741 25 4058241056717 12 4265981595566 13,
  r 7305236491596 25 6175401942957 13 5296909721118 13,
  r (-5580725052968) 25 0 13 0 13,
  r 3946122651015 25 4108265279171 13 1059381944224 12]

/-- `S2(·,·,3)`: 2 terms. -/
def S2Z : List (Dec × Dec × Dec) := [
  r 3749920358054 25 3230285558668 12 2132990797783 13,
  r 2735037220939 25 6154322683046 12 5296909721118 13]

end Verif.EpvRef
