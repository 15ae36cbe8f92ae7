import Verif.Model.Epv.Table

/-!
# `E0` of `crates/tofas/src/epv00_data.rs` (lines 2-1512)

`row a i b j c k` is the row `[a*10^-i, b*10^-j, c*10^-k]`; digits as in the source.
-/

namespace Verif.Epv

/-- `E0[0]`. -/
def E0_0 : List Row := [
  row 999829287813200 15 999892109889800 15 279620763907500 20,
  row 835257956741400 17 (-244270089373500) 16 101604219814200 20,
  row 561144533514800 17 835292974291500 17 804430503364700 21,
  row 104666429557200 18 104669730017700 18 438534790927400 21,
  row 311084253467700 19 311084187666300 19 318615641490600 21,
  row 255241350355000 19 257026909459300 19 227241228579200 21,
  row 213720784578100 19 214738962361000 19 164562010300700 21,
  row 168024018295100 19 168034438405000 19 181583692116600 21,
  row 167901237079500 19 167911731219300 19 144746167636400 21,
  row 144552694677700 19 144051206844000 19 143076087638200 21,
  row 109103824618400 19 113513966499900 19 112044575322600 21,
  row 934439973393200 20 934548257101800 20 109023284079700 21,
  row 899318291065200 20 900741871956800 20 971572734655100 22,
  row 566554603411600 20 567153671231400 20 103626713621700 21,
  row 684414670303500 20 745140186166600 20 875266527134000 22,
  row 734661090556500 20 639347005711400 20 833186495600400 22,
  row 681539647441400 20 681427588169700 20 690165867024500 22,
  row 611278725305300 20 611370562888700 20 914453684899800 22,
  row 451812071123900 20 450385136727300 20 720508503743500 22,
  row 452196343070600 20 452224914192600 20 769787465417600 22,
  row 449742676408500 20 450179430701800 20 519754573838400 22,
  row 406219056695900 20 551492748018000 20 503134537860800 22,
  row 541219348019200 20 406286279999500 20 452711020584000 22,
  row 546983904938600 20 541490042971200 20 475335579808900 22,
  row 520526408347700 20 546315398742400 20 429695197751600 22,
  row 214975993545500 20 507161185932900 20 385534156838700 22,
  row 227910961850100 20 219511209445500 20 525393097099000 22,
  row 225928293968300 20 227913923391900 20 402463049647100 22,
  row 255895027131900 20 227838610087600 20 406106979145300 22,
  row 256158144755500 20 255908800330800 20 379788380420500 22,
  row 178144111544000 20 256107928685600 20 293303322558700 22,
  row 161200587464400 20 179275579638700 20 350300093042600 22,
  row 181863066710500 20 181871565650200 20 367009621405000 22,
  row 181860137752900 20 181874492479100 20 290560943700800 22,
  row 155447592525700 20 155451879139000 20 246682782171300 22,
  row 209094802924100 20 206326573723900 20 269164729533200 22,
  row 200017634546000 20 149761352004100 20 215055466794600 22,
  row 128953591775900 20 200061794042700 20 223748192268000 22,
  row 128113530788100 20 128973119558000 20 181774103815700 22,
  row 151822900569200 20 128265799893400 20 222782076213200 22,
  row 945012857902700 21 152891596865800 20 194471377230700 22,
  row 778111949499600 21 118730409843200 20 152734052066200 22,
  row 773340775991200 21 784278292811800 21 157728257491400 22,
  row 735064431812000 21 735289228086800 21 142473882542400 22,
  row 653592882702300 21 657018936079700 21 161656312170100 22,
  row 632462418365600 21 632496759041000 21 140121039169200 22,
  row 629856530055700 21 629828987228300 21 148872697421400 22,
  row 858703708917900 21 647668646585500 21 169262644238800 22,
  row 829995449103500 21 858703465123400 21 112357158291000 22,
  row 631126350340100 21 806894878811300 21 990330860631700 23,
  row 600564674545200 21 835378601166100 21 917453318719100 23,
  row 791771510992900 21 600932453213200 21 864598563145700 23,
  row 755695809968500 21 755815855956600 21 (-108587649268800) 22,
  row 677322824494900 21 580927950450300 21 926430907781500 23,
  row 537070857784700 21 537413195025400 21 824311698495400 23,
  row 571080426620300 21 571116050732600 21 826810211370800 23,
  row 570982458372600 21 571018317074600 21 904361398822700 23,
  row 514395089644700 21 514437359061000 21 743291203878900 23,
  row 508801060454600 21 510310892726700 21 858623372728500 23,
  row 496036908517200 21 496065469789100 21 761223006013100 23,
  row 480313789118300 21 478638568928000 21 709778775140800 23,
  row 573174776822500 21 610991126366500 21 764023704017500 23,
  row 473594796057900 21 483989894402400 21 707044568808100 23,
  row 480834879662500 21 473482262391900 21 769077095770200 23,
  row 411507374313700 21 483474147329000 21 805129254259400 23,
  row 523057588928700 21 513485858115600 21 590270910451500 23,
  row 513397788921500 21 506400426497800 21 513456749646200 23,
  row 506581582532700 21 375347677276100 21 552580204610200 23,
  row 433983159386800 21 493526401428300 21 588072478422100 23,
  row 395292863895300 21 395092960089700 21 521169908137000 23,
  row 489849811194200 21 489584978977700 21 489184957356200 23,
  row 475749020932800 21 421524168888600 21 515024606999700 23,
  row 472770166974900 21 379677373113200 21 510243431963300 23,
  row 380096668186300 21 311417814251500 21 508340525425200 23,
  row 325730107793900 21 326066422083800 21 420656258568200 23,
  row 325581052867400 21 397699612300800 21 466324968357900 23,
  row 325202974818700 21 280145967292400 21 409947441653000 23,
  row 325550563530800 21 363893186886100 21 462825122076700 23,
  row 280134521199000 21 248701326947600 21 502406872814200 23,
  row 368898774097000 21 303416548199400 21 512023432775800 23,
  row 247515342945800 21 267627882558600 21 552402981528000 23,
  row 303345774915000 21 276490381891800 21 475741571886000 23,
  row 218674376311000 21 248514993050700 21 391578613112700 23,
  row 276477703277400 21 219930554094100 21 486905314999100 23,
  row 219902876859200 21 257110650043500 21 364936570372900 23,
  row 204648282476000 21 204975181715800 21 399249394900200 23,
  row 261120914750700 21 259970729629700 21 332024747741800 23,
  row 228607965681800 21 178501807221700 21 328712373969600 23,
  row 185507120258700 21 232483389111500 21 347277681110300 23,
  row 232466950678400 21 170971111954500 21 342325329476700 23,
  row 170952801568800 21 210715935171600 21 389617389824400 23,
  row 216815687582800 21 175033308029500 21 338845533792400 23,
  row 210667555653500 21 200059821033900 21 306270471652300 23,
  row 143021383046500 21 138092024868100 21 327007560040000 23,
  row 138839690194400 21 141246047029900 21 310120921525900 23,
  row 192225884419000 21 188845980300100 21 278088334731100 23,
  row 188846005829200 21 178837054258500 21 290360593182400 23,
  row 178944938610700 21 136089329616700 21 268201474311900 23,
  row 136080368537400 21 150684653016000 21 253436010849200 23,
  row 150403801470900 21 180091337617600 21 239256488250900 23,
  row 138276953338900 21 143626139064900 21 265666725485600 23,
  row 143805976907900 21 122022711415100 21 233124209677300 23,
  row 132630326003700 21 133788360359200 21 228789836366800 23,
  row 115924495054000 21 115932665073800 21 233694452130600 23,
  row 143311814913600 21 135285312856900 21 315663223626900 23,
  row 123462314859400 21 143340829608300 21 298261240276600 23,
  row 123394987534400 21 123470166651800 21 277403167480700 23,
  row 992719606129900 22 123402719200700 21 229523654863800 23,
  row 124230219131600 21 124402409179700 21 219071469987300 23,
  row 109840219520100 21 109793494551600 21 219149584504500 23,
  row 115819139531500 21 125461132985600 21 249290162838600 23,
  row 904847559624100 22 115824728678400 21 199377806431900 23,
  row 888985326902300 22 903907825296000 22 189814647902200 23,
  row 104869424216400 21 910802497883600 22 191828012763400 23,
  row 111230837864600 21 888706810843600 22 191635106160700 23,
  row 863172970990100 22 863237403543800 22 183472018146600 23,
  row 852781695166400 22 789318699296700 22 124920152380600 23,
  row 789213945699100 22 829765020117200 22 147730405053900 23,
  row 105178290523600 21 101975957898800 21 126431643124900 23,
  row 104821994316400 21 101003769623600 21 120352649503900 23,
  row 743576077514300 22 104772754826600 21 922168105983100 24,
  row 986957410694900 22 735199388108600 22 784927836764600 24,
  row 915688636422600 22 986877109234100 22 798339207738700 24,
  row 700683435618800 22 700732195939000 22 792539543165400 24,
  row 980617018260100 22 686141167970900 22 764047328588600 24,
  row 905228967360700 22 755451980961400 22 539893775448200 24,
  row 755420086789300 22 954188044833500 22 562624755019300 24,
  row 821574128649800 22 718560672215500 22 552519719785500 24,
  row 718517857539700 22 713136087171000 22 540762983789800 24,
  row 713072647618000 22 665114202103900 22 385673911980100 24,
  row 665089446116200 22 853861821366700 22 385642523998700 24,
  row 739688882368800 22 863495428804400 22 435086775598300 24,
  row 742058888477500 22 744941505148400 22 384411392499600 24,
  row 614118164290800 22 742104759916900 22 285486915543100 24,
  row 637355792405800 22 614069435442400 22 171922767141600 24,
  row 635947432926100 22 635352514303300 22 152784687975500 24,
  row 574017358264600 22 622196401344700 22 112822926484700 24,
  row 701986408460200 22 585248025724400 22 0 0,
  row 639805448704200 22 639863749891100 22 0 0,
  row 779709265049800 22 703974406987800 22 0 0,
  row 646676000090000 22 697799769438200 22 0 0,
  row 752941704389000 22 746062955839600 22 0 0,
  row 692457114089200 22 537657753610100 22 0 0,
  row 622079865022200 22 753060789355600 22 0 0,
  row 587020939185300 22 682292897160500 22 0 0,
  row 626395347388800 22 622077238009400 22 0 0,
  row 625778139001200 22 658695079904300 22 0 0,
  row 569730494512300 22 587380056577100 22 0 0,
  row 633543874679100 22 626434692974500 22 0 0,
  row 637725844115200 22 625792911566900 22 0 0,
  row 648484181816500 22 534353603340900 22 0 0,
  row 473555148525000 22 558784978171400 22 0 0,
  row 462859599617000 22 690510084560300 22 0 0,
  row 625815233693300 22 617895706664900 22 0 0,
  row 619617136659400 22 618727022433100 22 0 0,
  row 615955695212600 22 538566429142600 22 0 0,
  row 498774117239400 22 632936391792600 22 0 0,
  row 545928070314200 22 454601876160400 22 0 0,
  row 486346118999900 22 619609104937500 22 0 0,
  row 534991209315800 22 615955510821800 22 0 0,
  row 567372560780600 22 499534053931700 22 0 0,
  row 474548506051200 22 545703124357200 22 0 0,
  row 474537900532600 22 486346141839700 22 0 0,
  row 404900279632100 22 534294762687000 22 0 0,
  row 424708401451500 22 567429664843900 22 0 0,
  row 402691236305500 22 474578312016100 22 0 0,
  row 406293501177400 22 474567696119800 22 0 0,
  row 534777104850900 22 404979686997300 22 0 0,
  row 482949413650500 22 424833359694000 22 0 0,
  row 434255440459900 22 402717807020500 22 0 0,
  row 402159918436100 22 406654394347600 22 0 0,
  row 410490047455800 22 485886378788000 22 0 0,
  row 437653290513100 22 527739826353000 22 0 0,
  row 331459048065000 22 410563565655900 22 0 0,
  row 323242183964300 22 437678192577200 22 0 0,
  row 354117631887600 22 323582789469300 22 0 0,
  row 368983124268100 22 307324474030800 22 0 0,
  row 389060537677400 22 308860927137300 22 0 0,
  row 303855933978000 22 339302227983600 22 0 0,
  row 313708396978200 22 303868650880200 22 0 0,
  row 402400408185400 22 401967775249700 22 0 0,
  row 330023487928300 22 328883499823200 22 0 0,
  row 363539915557500 22 388997379463100 22 0 0,
  row 303266869135600 22 305043898714100 22 0 0,
  row 280965206905800 22 360114256463800 22 0 0,
  row 369695538382300 22 368901555714100 22 0 0,
  row 356289414250300 22 356347189356500 22 0 0,
  row 351059852414800 22 277618317066700 22 0 0,
  row 361773614295300 22 292235053034100 22 0 0,
  row 262452491073000 22 351107691730200 22 0 0,
  row 253582420449000 22 361935100763200 22 0 0,
  row 351978722625700 22 256125471109800 22 0 0,
  row 257840670998200 22 262690394292000 22 0 0,
  row 342388798147300 22 255018739708300 22 0 0,
  row 277608388646700 22 253587352613800 22 0 0,
  row 337959281837900 22 351978615384700 22 0 0,
  row 305025542628400 22 342465149287300 22 0 0,
  row 265237835023600 22 237267663086100 22 0 0,
  row 237449817376800 22 271098077954100 22 0 0,
  row 271645125514000 22 303871088970400 22 0 0,
  row 303858369922900 22 222036413058500 22 0 0,
  row 222068122876000 22 302588082546000 22 0 0,
  row 304415654091200 22 278449348686400 22 0 0,
  row 273185992356100 22 229441414243800 22 0 0,
  row 228560301817100 22 201272329472400 22 0 0,
  row 202500645455500 22 203635783195800 22 0 0,
  row 201259751980400 22 200347482328800 22 0 0,
  row 200340696225800 22 220714490010900 22 0 0,
  row 220786344137100 22 248166490513500 22 0 0,
  row 248137430562400 22 267494918229500 22 0 0,
  row 213092328887000 22 245055472032200 22 0 0,
  row 244637054339100 22 260197598645700 22 0 0,
  row 193249275905200 22 219986002284800 22 0 0,
  row 260012256804900 22 244812117231600 22 0 0,
  row 243175404748800 22 187601486404900 22 0 0,
  row 187590286920900 22 187451321939600 22 0 0,
  row 187438113942600 22 215638084255900 22 0 0,
  row 215669604717300 22 198169124006100 22 0 0,
  row 196507618248400 22 232999264853900 22 0 0,
  row 233481637235900 22 176518413530200 22 0 0,
  row 186993740880200 22 243636836608500 22 0 0,
  row 243623646088300 22 216408920388900 22 0 0,
  row 176136521661100 22 184775503422100 22 0 0,
  row 215628948050300 22 167479876996600 22 0 0,
  row 216474897925500 22 222254212435600 22 0 0,
  row 222228667085300 22 207107450592500 22 0 0,
  row 207090141492900 22 160822447183500 22 0 0,
  row 179274517702000 22 185758343907100 22 0 0,
  row 184180206844500 22 179301883615900 22 0 0,
  row 157840163171800 22 157539122169200 22 0 0,
  row 156169015253100 22 184013200955700 22 0 0,
  row 155859104546300 22 176091728828100 22 0 0,
  row 173735646957600 22 156177951851600 22 0 0,
  row 143475561999100 22 155868788520500 22 0 0,
  row 148218780665400 22 195135938257900 22 0 0,
  row 142481282708900 22 156914427561400 22 0 0,
  row 138028244862300 22 147913038946200 22 0 0,
  row 181148124456600 22 146782851076400 22 0 0,
  row 150444618569600 22 162762733744000 22 0 0,
  row 174077615413700 22 150349847975800 22 0 0,
  row 137433953625100 22 129796770823700 22 0 0,
  row 176137747770400 22 137441689663400 22 0 0,
  row 153513822579500 22 178381232521900 22 0 0,
  row 178814054367600 22 152588422875600 22 0 0,
  row 137500280799600 22 145106739676300 22 0 0,
  row 124211575863200 22 129771311195000 22 0 0,
  row 145097733393800 22 146278401282000 22 0 0,
  row 129757957502300 22 138418598000700 22 0 0,
  row 146266793482100 22 122149759980100 22 0 0,
  row 138177437479900 22 156057452589600 22 0 0,
  row 168233316930700 22 154459837203600 22 0 0,
  row 119081291883700 22 153167892869600 22 0 0,
  row 122143476210600 22 134932150379500 22 0 0,
  row 154993464486000 22 125203029091700 22 0 0,
  row 125213895305000 22 145924381668700 22 0 0,
  row 123707890538700 22 122610362526200 22 0 0,
  row 144695338961500 22 101944964150400 22 0 0,
  row 138844645717000 22 138078943360700 22 0 0,
  row 101933917922800 22 101945342165800 22 0 0,
  row 125888081534300 22 129792943440500 22 0 0,
  row 129776823826100 22 991267778609700 23 0 0,
  row 991350571809400 23 982938609859900 23 0 0,
  row 983045315596900 23 122680774610400 22 0 0,
  row 119261586530900 22 119269175599700 22 0 0,
  row 983587479827700 23 983649922708100 23 0 0,
  row 963908756927700 23 964286256428500 23 0 0,
  row 117571610700100 22 116518440486200 22 0 0,
  row 101892650867800 22 117579441881800 22 0 0,
  row 950008786922500 23 101894863560100 22 0 0,
  row 966419291657500 23 950038360667600 23 0 0,
  row 961285871220300 23 122751220290600 22 0 0,
  row 111764567541300 22 966479200999300 23 0 0,
  row 115886405216000 22 961328566633100 23 0 0,
  row 902104346702800 23 111790673621100 22 0 0,
  row 883613477356300 23 961137864078200 23 0 0,
  row 104587220069100 22 884535485237000 23 0 0,
  row 121146348779800 22 105404696660000 22 0 0,
  row 854199080409400 23 121553912448300 22 0 0,
  row 103872070363600 22 993246095520900 23 0 0,
  row 112672235144500 22 878580471504300 23 0 0,
  row 869737385963100 23 853808409756200 23 0 0,
  row 886938002844100 23 864899436952900 23 0 0,
  row 924701469325800 23 103906321906700 22 0 0,
  row 920506293095000 23 886798392643900 23 0 0,
  row 800074503804900 23 832749595524400 23 0 0,
  row 916897365081900 23 924308835613300 23 0 0,
  row 107544494923800 22 920565735783500 23 0 0,
  row 781729852581700 23 103326971460600 22 0 0,
  row 954146922635600 23 800170627555200 23 0 0,
  row 982191012202700 23 917185825419100 23 0 0,
  row 989782202377700 23 107532715024200 22 0 0,
  row 773728928376500 23 988486668982800 23 0 0,
  row 926020403471000 23 954183557667700 23 0 0,
  row 732025288848600 23 773990337623700 23 0 0,
  row 731978578094600 23 731196268410600 23 0 0,
  row 714721993377800 23 972490486962400 23 0 0,
  row 794650282987800 23 925162898361200 23 0 0,
  row 900171180893200 23 732076378784200 23 0 0,
  row 899404150725700 23 732029665096200 23 0 0,
  row 829858278735800 23 794703227103900 23 0 0,
  row 852659652071000 23 900527705311500 23 0 0,
  row 820982210319700 23 899560165204800 23 0 0,
  row 635704986109400 23 828804056879600 23 0 0,
  row 737047317904900 23 635938134725500 23 0 0,
  row 723215466472600 23 869957222862600 23 0 0,
  row 632876549490300 23 645679754273600 23 0 0,
  row 803006490859500 23 742457347545200 23 0 0,
  row 627546425923200 23 723567119616800 23 0 0,
  row 705189744632500 23 810401518273300 23 0 0,
  row 616159370542800 23 809857653593700 23 0 0,
  row 775468395727800 23 627529234662500 23 0 0,
  row 588992899070100 23 605243298911200 23 0 0,
  row 570575604707500 23 570565153581700 23 0 0,
  row 596417880833200 23 578965011513800 23 0 0,
  row 671244602746700 23 551213215337700 23 0 0,
  row 594180927546400 23 738889081910200 23 0 0,
  row 546699362739500 23 546759399179800 23 0 0,
  row 634051209098000 23 638851980299900 23 0 0,
  row 632550571004500 23 610677714994400 23 0 0,
  row 616478950968500 23 738342027548900 23 0 0,
  row 526333081243000 23 550520814173800 23 0 0,
  row 559708778022100 23 631075746287700 23 0 0,
  row 539655623681700 23 616690492969100 23 0 0,
  row 539661514822300 23 526344204275400 23 0 0,
  row 709183244334100 23 559182808262900 23 0 0,
  row 657235258978200 23 539705168049700 23 0 0,
  row 596023606079500 23 539699274515900 23 0 0,
  row 512548004351100 23 657291300072600 23 0 0,
  row 592824186641000 23 512342186641300 23 0 0,
  row 524960035742400 23 593049572599900 23 0 0,
  row 605917127608700 23 643179740393300 23 0 0,
  row 529523508166200 23 500318220760400 23 0 0,
  row 582056187593300 23 558773103250400 23 0 0,
  row 475469660644000 23 593526340781600 23 0 0,
  row 638505354895500 23 475601982776000 23 0 0,
  row 658982827394100 23 659995117263700 23 0 0,
  row 538337656718900 23 590260686846400 23 0 0,
  row 592894168353800 23 592114780903100 23 0 0,
  row 481606070979400 23 550538258126600 23 0 0,
  row 600338158651200 23 535377107186200 23 0 0,
  row 550422539310500 23 506328221094600 23 0 0,
  row 535377262012900 23 592612040338300 23 0 0,
  row 578625376854400 23 521101617614900 23 0 0,
  row 506570670200200 23 534707508489400 23 0 0,
  row 597283888527600 23 487260977357400 23 0 0,
  row 532358587796100 23 472771132142000 23 0 0,
  row 521077268285800 23 602942601865200 23 0 0,
  row 472654904053500 23 432148528436900 23 0 0,
  row 602942510505900 23 447640676055300 23 0 0,
  row 448154282651300 23 583526827742000 23 0 0,
  row 583602450506800 23 517218360274800 23 0 0,
  row 413704661327200 23 569357146518400 23 0 0,
  row 517197747392400 23 406063496534900 23 0 0,
  row 569442983373200 23 396739877047300 23 0 0,
  row 400915892529800 23 394375400525500 23 0 0,
  row 478493959687300 23 478132342782400 23 0 0,
  row 398372502261000 23 387148378120400 23 0 0,
  row 387053523246200 23 514174173399700 23 0 0,
  row 514050121395100 23 400238597849700 23 0 0,
  row 384903481935500 23 490109260409700 23 0 0,
  row 400238307506000 23 374093263034500 23 0 0,
  row 389071954354900 23 438728371853800 23 0 0,
  row 488708460788100 23 501919780203300 23 0 0,
  row 373993928759200 23 383493169517500 23 0 0,
  row 503192591820900 23 376041394249700 23 0 0,
  row 438774876495400 23 371971720462800 23 0 0,
  row 414739809886500 23 414562353014900 23 0 0,
  row 371908999358600 23 393278842538000 23 0 0,
  row 393423846105600 23 368637747685700 23 0 0,
  row 367247137562200 23 377907795033900 23 0 0,
  row 376891127758300 23 409133455059800 23 0 0,
  row 403338841729500 23 392669453614600 23 0 0,
  row 376419461783200 23 484100025328900 23 0 0,
  row 484062822628400 23 494934013024000 23 0 0,
  row 494944392378500 23 376155773736000 23 0 0,
  row 411739308997100 23 364739626818800 23 0 0,
  row 392575402042800 23 393240507418900 23 0 0,
  row 363055175792300 23 363132250114100 23 0 0,
  row 362727480235700 23 413000742513900 23 0 0,
  row 380614388509300 23 443390596517600 23 0 0,
  row 443325464156500 23 385181417694700 23 0 0,
  row 371231984657600 23 348580705278500 23 0 0,
  row 384984753478300 23 397977281699100 23 0 0,
  row 348395543016500 23 340260746050000 23 0 0,
  row 396191273098200 23 404999300092600 23 0 0,
  row 341997824448100 23 342051118238200 23 0 0,
  row 332941775817700 23 364077236501200 23 0 0,
  row 420720689319300 23 332303798750100 23 0 0,
  row 326854897641000 23 450314166363700 23 0 0,
  row 332188008268500 23 431456005558800 23 0 0,
  row 450317301085200 23 329422694911000 23 0 0,
  row 431659909095400 23 321565719728100 23 0 0,
  row 328349332385000 23 412936265626600 23 0 0,
  row 316403354234300 23 313776297638800 23 0 0,
  row 415972095672500 23 351401095238400 23 0 0,
  row 356517689221700 23 332760757153000 23 0 0,
  row 351444095022100 23 354106694667500 23 0 0,
  row 354059687190900 23 321617984705200 23 0 0,
  row 296076990511800 23 295904505957000 23 0 0,
  row 296221373968400 23 388404032666500 23 0 0,
  row 388355670025100 23 292202753988600 23 0 0,
  row 291922551634600 23 411084638204200 23 0 0,
  row 311515886337000 23 293450841103200 23 0 0,
  row 409943814421200 23 396689619300000 23 0 0,
  row 289953185896400 23 328669582761000 23 0 0,
  row 328973342985500 23 372064309419600 23 0 0,
  row 393307561287500 23 328550890617400 23 0 0,
  row 302140376446700 23 375388057597300 23 0 0,
  row 279859894975700 23 302212938558700 23 0 0,
  row 339742130270700 23 279856920562100 23 0 0,
  row 372039800217900 23 339787207050500 23 0 0,
  row 359848418626700 23 370809977297700 23 0 0,
  row 369459402731000 23 359928354151000 23 0 0,
  row 268044415296900 23 368870275305900 23 0 0,
  row 349757486564100 23 268108472400300 23 0 0,
  row 313027412949400 23 349599346075900 23 0 0,
  row 324111906955100 23 313077032499500 23 0 0,
  row 260196084206100 23 274435382194100 23 0 0,
  row 269060152750400 23 284273290634100 23 0 0,
  row 290868815266400 23 304688268215400 23 0 0,
  row 312045613187500 23 239907245514300 23 0 0,
  row 314885542338400 23 238430627420400 23 0 0,
  row 305104426101700 23 297732450055900 23 0 0,
  row 282600687666000 23 306283525897200 23 0 0,
  row 310003419171100 23 310968258923100 23 0 0,
  row 239877164010100 23 290392035529900 23 0 0,
  row 238400284272800 23 282322198921200 23 0 0,
  row 284214651756800 23 318794969664900 23 0 0,
  row 284767437134000 23 292255977165500 23 0 0,
  row 290372214076400 23 243630206660300 23 0 0,
  row 318761071060500 23 304947304360600 23 0 0,
  row 304886999281300 23 286368257578400 23 0 0,
  row 286021695098400 23 264175051796600 23 0 0,
  row 270111768311300 23 270409346624300 23 0 0,
  row 250989159015200 23 244552217701100 23 0 0,
  row 262320025222300 23 262360881023000 23 0 0,
  row 262254166920200 23 207925970405300 23 0 0,
  row 281843566709900 23 282022559677100 23 0 0,
  row 236519679746500 23 236522195092700 23 0 0,
  row 235870464614300 23 235968207714900 23 0 0,
  row 238829948139000 23 238757713720600 23 0 0,
  row 199604121722400 23 198210208981600 23 0 0,
  row 268759306033600 23 268750238992500 23 0 0,
  row 261891367081000 23 220775166913500 23 0 0,
  row 257152305036400 23 261837021427400 23 0 0,
  row 258213500694600 23 259195188736100 23 0 0,
  row 237253019036100 23 237505565624800 23 0 0,
  row 235717848471200 23 247201997891100 23 0 0,
  row 245159039472300 23 236815712719900 23 0 0,
  row 237004594960800 23 176484660569300 23 0 0,
  row 226899726735800 23 229176960879800 23 0 0,
  row 173143213790600 23 220999731694300 23 0 0,
  row 162986974162200 23 229269909792300 23 0 0,
  row 220621580197400 23 162968301532900 23 0 0,
  row 220546955468000 23 220649286242600 23 0 0,
  row 214879236250900 23 220574656825700 23 0 0,
  row 187373365784700 23 202631076799100 23 0 0,
  row 202657375895900 23 176297762216300 23 0 0,
  row 180777032511000 23 136853504960600 23 0 0,
  row 188117440858100 23 172059877545000 23 0 0,
  row 136802367169000 23 170242901544900 23 0 0,
  row 172001791628000 23 141403319768500 23 0 0,
  row 170242766513100 23 157376895804300 23 0 0,
  row 141403251005400 23 165070518444700 23 0 0,
  row 165262604536400 23 165108761885500 23 0 0,
  row 164295776968600 23 161640951898300 23 0 0,
  row 161495240362400 23 153717517358100 23 0 0,
  row 153598829118800 23 159319198055300 23 0 0,
  row 159319373817700 23 149948017064300 23 0 0,
  row 107456912638200 23 149380784323500 23 0 0,
  row 107440821450900 23 107457119932800 23 0 0,
  row 970019967046500 24 107440698341700 23 0 0,
  row 125843351706100 23 975757685585100 24 0 0,
  row 124030322953900 23 125843288756500 23 0 0,
  row 901834594812700 24 124033634328200 23 0 0,
  row 113530143280500 23 901610700516400 24 0 0,
  row 921588795137000 24 113539236091800 23 0 0,
  row 105540105414700 23 921604608956500 24 0 0,
  row 100872597983100 23 106127661503000 23 0 0,
  row 721739810432100 24 101011059626300 23 0 0,
  row 691203313444700 24 721742475619900 24 0 0,
  row 683388152354900 24 691200384675600 24 0 0,
  row 488730420514200 24 687181466484700 24 0 0,
  row 517370975478800 24 488715801634300 24 0 0,
  row 467135309714500 24 516180286631400 24 0 0,
  row 565260843948000 24 565259955905700 24 0 0,
  row 560406133125300 24 471081260858600 24 0 0,
  row 471272336540000 24 490997750032400 24 0 0,
  row 490996746511200 24 477264183937800 24 0 0,
  row 477135826765800 24 448756256715300 24 0 0,
  row 394345144598900 24 394344123049700 24 0 0,
  row 395210912024400 24 395223691359800 24 0 0,
  row 378813459478900 24 378889836341700 24 0 0,
  row 373833019047900 24 373832932883100 24 0 0,
  row 309986667813600 24 245119916515100 24 0 0,
  row 200296271676800 24 243673440290400 24 0 0,
  row 219829133875400 24 221360527432500 24 0 0,
  row 149195833078400 24 149152120482900 24 0 0,
  row 147538407617300 24 147499532974400 24 0 0,
  row 166162662462400 24 166193947565600 24 0 0,
  row 901582346002500 25 901594674800300 25 0 0]

/-- `E0[1]`. -/
def E0_1 : List Row := [
  row 175348517150400 14 182658391384600 15 319870156020900 14,
  row 171034440458200 14 0 0 542236039591300 14,
  row 0 0 139527799868000 15 388022286665200 14,
  row 166722541677000 14 964142310976300 16 370436993746800 14,
  row 668751339025100 15 538114040171200 14 399963936323500 14,
  row 583063735841300 15 530101640712800 14 398473831595200 14,
  row 109233095401100 14 266251086985000 14 356541251684100 14,
  row 495536613498700 15 520790411970400 14 498450705902000 14,
  row 615301409190100 14 458218748696800 14 370275357010800 14,
  row 347274410049200 14 190068851772600 14 340965871235700 14,
  row 368984578611900 14 527310853855600 14 482956157024600 14,
  row 607393464567200 14 450304768773800 14 208072917806600 14,
  row 317570524906900 14 160562105963700 14 347629588194800 14,
  row 215248467224600 14 581284907086100 15 405663953664800 14,
  row 130696409975000 14 280734679483600 14 444815951991100 14,
  row 435498007046600 14 602922413385500 14 499170404420800 14,
  row 221822921126700 14 647299014597400 15 432535899421900 14,
  row 538478842545800 14 381384341970000 14 114182637536300 14,
  row 608760401229100 14 452780437099600 14 362434417014300 14,
  row 127942452490600 14 599178302922400 14 555425745899800 14,
  row 536912914426600 14 379870384439700 14 625176096173500 14,
  row 543647330336700 15 396125783338800 14 249734109191300 14,
  row 786783852839500 15 525624729636900 14 233507992099200 14,
  row 146144031113400 14 549903201409700 14 709414898747400 15,
  row 443294469611600 14 617309245409700 14 110191635209100 14,
  row 450223749684600 14 287024424765100 14 182549540548600 14,
  row 123944130881500 14 295233861720100 14 442474068720800 14,
  row 327243098533100 14 595177513293300 14 512049815705300 14,
  row 226547108640400 14 484545639878500 14 602977143545100 14,
  row 145474065324500 14 694532111731100 15 443519360083600 15,
  row 296206863020600 14 616722460830100 14 512415735650700 14,
  row 147325504100600 14 140012250963200 14 542183016206500 14,
  row 374390329344700 15 470334761183000 14 458210166729700 14,
  row 627417435455400 14 508674890023700 14 192656642007200 14,
  row 162411090681600 14 533100804271300 16 609017453983400 15,
  row 585205227625600 14 428368048417800 14 139343259507700 14,
  row 407209329851300 14 607420782607300 14 430867171595100 14,
  row 521701933106900 14 250142628145000 14 813396826941400 15,
  row 480205453893400 14 364634059953600 14 375520512745400 14,
  row 869191474250200 15 323286480490200 14 275955859666400 14,
  row 460185952995000 14 558143341666900 14 569964586912100 14,
  row 184435281669400 14 545357645369400 14 198674909174600 14,
  row 358279015475000 14 282395392227300 15 320501721798300 14,
  row 269527778823000 14 112436958017500 14 625674790366600 14,
  row 365132798614200 14 208915404284000 14 260167125939400 15,
  row 224130237586200 14 670485558123000 15 468693917350600 14,
  row 440712240608100 14 283641485584000 14 281586245137200 14,
  row 302430722311900 14 485243386646700 15 495689410979700 14,
  row 619253942823700 14 145351100566800 14 238119269769600 14,
  row 201475879541600 14 922408779860900 15 429485165768400 14,
  row 339950050339700 14 463170718489500 14 307517151064200 14,
  row 249338687783700 14 182949882772600 14 547753482163300 15,
  row 415949174014300 14 258859680031700 14 0 0,
  row 403416293423000 14 551681885347600 15 596857167009700 14,
  row 156221916373400 14 627567473496000 14 148909877764300 14,
  row 266273080338600 14 109190595687200 14 351297769198300 14,
  row 398582843083300 14 241500163509000 14 129070440822100 15,
  row 130814468868900 14 602033644343800 14 199108689333700 14,
  row 535281721480400 14 377563456460500 14 423835792441400 14,
  row 264426792234900 14 107345094675600 14 291109015016600 14,
  row 400884419208000 14 243117801231000 14 190893839239000 14,
  row 379455017459700 14 534335615791400 14 612921900016800 15,
  row 610711830898200 14 583083359404700 16 138041703665100 14,
  row 477145861816300 14 453608013482100 14 168050424908400 14,
  row 332711133515900 14 258509048975400 15 512742348451100 14,
  row 530570855169400 14 421331717260300 14 202027419091700 14,
  row 578423073881400 14 481441880647800 15 260677867641800 14,
  row 205206479367900 14 159995339978800 14 161301176966300 14,
  row 364499419583000 14 215741755687300 14 460448341723600 14,
  row 493037643675800 14 335939418425400 14 571896411419300 14,
  row 454208421973100 15 516570437655800 14 368965893219600 14,
  row 316112638887800 14 206536880099300 14 409976985512200 14,
  row 621499384544600 15 146860634661200 14 566083460250900 14,
  row 304013233929700 14 361563807947400 14 984222121897400 15,
  row 806497736008700 15 441713492243500 14 134136363416300 15,
  row 197414798103400 14 470086688300400 14 813013273586600 15,
  row 284592491313500 14 453890206092200 14 579149777064400 14,
  row 301790082412000 14 133419799147500 14 124980276933100 14,
  row 610971779317900 14 374927555827500 14 479568480274300 14,
  row 291155023528900 14 423662203087300 15 381042038720800 14,
  row 217914602585600 14 597084800781100 14 102926471435100 14,
  row 199416105074400 14 519463675450100 14 352804478177900 14,
  row 512568723793600 14 100243420784600 14 559388928264600 14,
  row 482264686025200 15 306677309840300 14 329963645443300 14,
  row 463763329383100 14 758831245906300 15 128604900258400 14,
  row 146703873309300 14 344497743485600 14 310030758946400 14,
  row 304471878348500 15 187312854220500 14 621268394080700 14,
  row 476422035680500 14 501589130661500 14 469911844592800 14,
  row 338363777442800 14 461827123973000 14 263050714200400 14,
  row 618908844925100 14 530000345566900 14 294643284430500 14,
  row 587496672977400 15 222981981511500 14 122483417926400 14,
  row 430299400913200 14 616148588000800 14 154380761635100 14,
  row 380047541989100 14 296735729999900 14 119177757231000 14,
  row 129466084650200 14 302700792391700 14 548349876773700 14,
  row 459479720211400 14 603759716379800 14 800083380434800 15,
  row 494304454359100 15 856147624337400 15 407798072188800 15,
  row 242694391202800 14 486973629020900 14 261749030214700 14,
  row 158297330349900 15 362641188643600 14 263470315829000 14,
  row 519724044050400 14 155097537742700 14 610244611487300 14,
  row 312036091621700 14 207582603319000 14 368182020869100 14,
  row 616470288820500 14 614887642025500 14 621604538888600 14,
  row 143742377097900 14 438258387990600 14 586494977774400 14,
  row 360968879967900 14 203664432736100 14 456662853280200 14,
  row 546301816722500 14 389227699468700 14 244272212693000 14,
  row 602890991209700 14 144795064974400 14 162662805068200 14,
  row 310964557499700 14 445785469296100 14 280360451260900 14,
  row 353935933286600 14 153881814715100 14 465400289715800 14,
  row 125932156977200 14 196852322076000 14 432651833325300 14,
  row 106594939260900 14 577980349998500 14 451961457832800 14,
  row 219250874383700 14 621097522138800 15 301262691254900 14,
  row 405441127865000 14 259196380799800 14 129010142405200 15,
  row 542976474851800 14 248361281267000 14 386404679941400 14,
  row 504658620657500 14 385755457979600 14 505377723589100 14,
  row 262885803080600 14 582636851298400 14 222247019254800 14,
  row 417729271990700 14 347569457398700 14 871906725777400 15,
  row 160134523255700 14 305907048898300 16 403149109804000 14,
  row 246388899751300 14 158319483772800 14 593837946683500 14,
  row 315402208871800 14 851977053463700 15 654472260679700 15,
  row 479503581608800 14 131959873873200 15 205907285323600 14,
  row 295298339523000 14 993786011561800 15 364481353260500 14,
  row 542054799146400 14 138213840539900 14 324181505560200 14,
  row 369564675366700 14 383339785173500 14 504381234245700 14,
  row 392267530660900 14 212491381439000 14 500002450275300 14,
  row 123396862486100 14 594630534376300 14 139873487182100 16,
  row 191954228068400 14 457465497708900 14 506711172313000 14,
  row 461590272436900 14 594923268684400 14 559738220007500 14,
  row 123686371907200 14 349524299056400 14 260133820942200 14,
  row 328680010155900 15 431011347166100 14 581483210925600 14,
  row 588094215836700 14 548030932365000 14 338482060907600 14,
  row 767487198766100 15 541109771365400 14 107239184047300 14,
  row 698712915011600 15 182784997395100 14 236954039332700 14,
  row 357682479444300 14 544358494334900 14 525557575108200 14,
  row 503361524536900 14 201153545906000 14 548235624618200 14,
  row 944992704567300 15 346456252924900 14 957363476314300 15,
  row 620634228034100 14 565755622881500 14 188720302520200 14,
  row 503607909575700 14 346381659382100 14 398218393115700 14,
  row 610510637135000 14 153225949869700 14 278745715629800 14,
  row 723774735901800 15 137539659887500 14 0 0,
  row 397636796966600 14 240564580197200 14 0 0,
  row 430542391062300 14 539754179902700 14 0 0,
  row 350013682520000 14 476234710541900 14 0 0,
  row 351477924610000 14 271194469216400 14 0 0,
  row 274345792867900 14 235298043023900 14 0 0,
  row 224259811820900 14 194394018069900 14 0 0,
  row 233283270752700 14 433765184695900 14 0 0,
  row 219110535895600 14 671687136927800 15 0 0,
  row 445755939669800 14 222971446050500 14 0 0,
  row 349923476140400 14 762701392058000 15 0 0,
  row 644169107925100 15 620278547896100 15 0 0,
  row 225259915109200 14 288677559666800 14 0 0,
  row 199281241764600 14 197724101205100 14 0 0,
  row 374467208294200 14 192292348482500 14 0 0,
  row 133422621174500 14 357075716463100 14 0 0,
  row 439583615915400 14 519755894776500 14 0 0,
  row 258704300799700 14 819349736892200 15 0 0,
  row 478249976912800 14 540633666558600 14 0 0,
  row 731225761992400 15 283776065453600 14 0 0,
  row 300137637253200 14 293358029705000 14 0 0,
  row 376722212854100 14 415787149437700 14 0 0,
  row 366359445027300 14 321170356170300 14 0 0,
  row 433118791904900 14 145909810292200 14 0 0,
  row 581619574551800 14 143045767613600 14 0 0,
  row 832367243567200 15 219642591673000 14 0 0,
  row 378502397629300 14 208661289026800 14 0 0,
  row 237822072878300 14 276020496653500 14 0 0,
  row 286410342326900 14 424536897186200 14 0 0,
  row 241540859597500 14 554472578701600 14 0 0,
  row 334347930980100 14 221398436358600 14 0 0,
  row 282174239826200 14 807578195289600 15 0 0,
  row 562466245871200 14 129326854037800 14 0 0,
  row 555725027500900 15 398614117580400 14 0 0,
  row 329669178000500 14 127611273823100 14 0 0,
  row 381444399944300 14 491611174152700 14 0 0,
  row 356022918925000 14 172580586442600 14 0 0,
  row 518538918056800 14 224364244210600 14 0 0,
  row 392138190967900 14 361413511827100 14 0 0,
  row 419065895538600 14 246087339346000 14 0 0,
  row 554602337109700 14 567843177179000 14 0 0,
  row 623103279449400 14 381401747729100 14 0 0,
  row 620706341919000 14 466021622917100 14 0 0,
  row 119525737571300 14 590690624373500 14 0 0,
  row 180469424099800 14 953614644588200 15 0 0,
  row 559781134350000 14 394220509764400 14 0 0,
  row 319105936653000 14 162481027128600 14 0 0,
  row 409434803257000 14 403046714257500 14 0 0,
  row 521928273879400 14 364887881869400 14 0 0,
  row 103724754455400 14 574958401709600 14 0 0,
  row 143002081611600 14 263012418707000 14 0 0,
  row 300291140367700 14 179034640362900 14 0 0,
  row 243704675729200 14 614219830161100 14 0 0,
  row 158159468964700 14 143242138649200 14 0 0,
  row 537986312152100 14 230282247579200 14 0 0,
  row 490422263932900 14 866047099457100 15 0 0,
  row 364644899731500 14 606972199538300 14 0 0,
  row 330782930014400 14 107902033179500 16 0 0,
  row 174754125112500 14 380906690228300 14 0 0,
  row 178468943260700 16 207543511441700 14 0 0,
  row 442005527626000 14 205780312015400 14 0 0,
  row 362977392920800 14 151006848801000 14 0 0,
  row 307962370678000 14 504361752890100 14 0 0,
  row 331248790350700 15 369479321820500 14 0 0,
  row 526552040177400 14 545061899904900 16 0 0,
  row 476666408125000 14 338116408450200 14 0 0,
  row 506914653069100 14 438230902521000 14 0 0,
  row 595493511227100 14 914221225651800 15 0 0,
  row 406178958926700 14 567617229315400 14 0 0,
  row 248504770524100 14 259276797762500 14 0 0,
  row 416377920932000 14 540497627118000 14 0 0,
  row 692383913382800 15 437328458702700 14 0 0,
  row 594417359567600 14 585918218848200 14 0 0,
  row 464101367196700 14 455538155745100 14 0 0,
  row 612579651875700 14 393316558495900 14 0 0,
  row 223457232450400 15 522797718908700 14 0 0,
  row 428101240544000 14 485806035394900 14 0 0,
  row 142994387487000 15 569054655360500 14 0 0,
  row 978180381694800 15 409953929744600 14 0 0,
  row 567036813017300 14 438259476991300 15 0 0,
  row 200898500683300 14 182978415244400 14 0 0,
  row 256618620245300 15 283625427897300 14 0 0,
  row 440812189149300 14 280349492583300 14 0 0,
  row 527274503865600 14 283689795967700 14 0 0,
  row 440772047902900 14 612752244602400 14 0 0,
  row 194389231507400 15 368316363500800 14 0 0,
  row 141857092454500 14 331699386724600 15 0 0,
  row 472460343943000 14 829409780548000 15 0 0,
  row 240026687459800 14 365949222026100 14 0 0,
  row 523034802873200 14 477449206718200 14 0 0,
  row 209919032894500 14 287312059768200 14 0 0,
  row 346752784484800 15 528244117792900 15 0 0,
  row 709864235634000 15 132078965425800 14 0 0,
  row 594334962037200 14 191711091625600 14 0 0,
  row 704065347898000 15 297263593713200 14 0 0,
  row 448706476034500 14 437256926198100 14 0 0,
  row 299339157099500 14 541642492642500 14 0 0,
  row 227804919825100 14 309444889875200 14 0 0,
  row 168211472582700 14 280210368980800 14 0 0,
  row 326266860257900 14 213643502046700 14 0 0,
  row 318777122177700 14 707262743567400 15 0 0,
  row 565016230864700 14 394760714323700 14 0 0,
  row 548706860750700 14 407924890919000 14 0 0,
  row 574568817220100 14 626963712284000 14 0 0,
  row 574806020365900 14 417565797070200 14 0 0,
  row 622684850579000 14 147654054756000 14 0 0,
  row 618931887856300 14 465347771524100 14 0 0,
  row 537181288439400 14 257300112822500 14 0 0,
  row 147168756971200 14 561279961877100 14 0 0,
  row 414383666212700 14 418966162387000 14 0 0,
  row 900347766195700 15 265691547219600 14 0 0,
  row 576050553642800 14 561251576013800 14 0 0,
  row 108547172946300 14 478341431791900 14 0 0,
  row 540987087013300 14 269443113806300 14 0 0,
  row 139720517460100 14 410510348966600 14 0 0,
  row 900180480909500 15 308243719401500 15 0 0,
  row 426252827554400 14 612407233408700 14 0 0,
  row 141164201202700 14 373310398169700 14 0 0,
  row 284447240361500 14 126712770681700 14 0 0,
  row 529583552222300 14 436779011226900 14 0 0,
  row 496942813549700 14 338720176870000 14 0 0,
  row 249136956180600 14 920414307373700 15 0 0,
  row 467942624897600 14 578687489642600 14 0 0,
  row 107450995332800 14 316423287074600 14 0 0,
  row 473509791822400 14 258676241335100 14 0 0,
  row 415864918733800 14 623906843660700 14 0 0,
  row 343820861369900 14 186738005142400 14 0 0,
  row 191330078122900 14 342471629372700 15 0 0,
  row 948768364412500 15 566137299065700 14 0 0,
  row 322814166428700 14 576836723909300 14 0 0,
  row 221660785430000 14 165735122294300 14 0 0,
  row 262511645973300 14 645829235086500 15 0 0,
  row 586056244921400 14 105430614074100 14 0 0,
  row 788568291738100 15 250527837911400 14 0 0,
  row 393214883118900 14 428973727700000 14 0 0,
  row 999560552169100 15 550059767314100 14 0 0,
  row 526376974267300 14 236140595346800 14 0 0,
  row 149684322036500 14 285131057626900 14 0 0,
  row 700903951721400 15 620877770534300 14 0 0,
  row 404154493851100 14 541309142393400 14 0 0,
  row 144758669231600 14 561396947975500 14 0 0,
  row 459424971811200 15 110612487701500 14 0 0,
  row 392555057903600 14 286922447647700 14 0 0,
  row 441134185603700 14 615964089934400 14 0 0,
  row 240265972481300 14 137490119878400 14 0 0,
  row 140157974342300 14 517108064132700 14 0 0,
  row 524597800081400 14 831732030490200 15 0 0,
  row 359080335694500 14 360559196918000 14 0 0,
  row 247015050167900 14 611429919684300 14 0 0,
  row 132860616123000 14 367515368373700 14 0 0,
  row 616225622599800 14 331332881302400 14 0 0,
  row 394256896703900 14 201998096005300 14 0 0,
  row 236024628723300 15 899201552417700 15 0 0,
  row 461980563428000 14 289866996364800 14 0 0,
  row 378472784745100 14 494671590447800 14 0 0,
  row 222335248760100 14 237178788846900 14 0 0,
  row 128869463687400 14 221377519061200 14 0 0,
  row 535986956777400 14 342937878773900 14 0 0,
  row 551661667585600 14 619587856440400 14 0 0,
  row 263045998456700 14 651150952739000 15 0 0,
  row 284981582722700 14 600108363942100 14 0 0,
  row 379524445075000 14 378907326508700 14 0 0,
  row 523641312736300 15 105965958220400 14 0 0,
  row 479460542442600 14 128031562436100 14 0 0,
  row 157875237032800 14 222443910676600 14 0 0,
  row 570892611376100 14 523491443386700 14 0 0,
  row 384240253024100 14 413798944149000 14 0 0,
  row 306754898153500 14 175841100949700 14 0 0,
  row 131393003006900 14 591928508999400 14 0 0,
  row 348850040888600 14 541461693882700 14 0 0,
  row 153206162619800 14 149651655713400 14 0 0,
  row 328585992999300 14 191991824276400 14 0 0,
  row 147734199946400 14 381961585545800 14 0 0,
  row 158611866309600 14 624426411514100 14 0 0,
  row 130488786880300 14 503773187261000 15 0 0,
  row 455533358935000 14 298455727199500 14 0 0,
  row 300176284206200 14 608703814069700 14 0 0,
  row 488678000759500 14 585566899407600 14 0 0,
  row 470150960382400 14 244312857474000 14 0 0,
  row 458835781727800 14 301756123419400 14 0 0,
  row 116454303889300 14 588738671293500 14 0 0,
  row 391917125964500 14 348346105989500 15 0 0,
  row 214382825354200 14 541738705670700 14 0 0,
  row 606656443424100 14 284819364478300 14 0 0,
  row 292631642947200 14 234988252082800 14 0 0,
  row 324430359150500 14 572857594407700 15 0 0,
  row 340430470366200 14 449579612593700 14 0 0,
  row 853237780319200 15 135544196767700 14 0 0,
  row 490196677441900 14 167342286430700 14 0 0,
  row 187467231579700 14 183350220637300 14 0 0,
  row 373572606433400 14 333112206582400 14 0 0,
  row 450203389993500 14 216532714267900 14 0 0,
  row 437233479987800 14 293114608928400 14 0 0,
  row 258161730290800 14 413440799408800 14 0 0,
  row 297481151315800 14 380542030374900 14 0 0,
  row 179607374824400 15 108246926059900 14 0 0,
  row 198199813697300 14 838433367840100 15 0 0,
  row 255917417160500 15 355258874930900 14 0 0,
  row 275096710677600 14 432082640952800 14 0 0,
  row 632594752357800 15 481187945444500 14 0 0,
  row 167230451906700 14 994262892239600 16 0 0,
  row 351256617257500 14 246655760776400 14 0 0,
  row 561093221918900 14 455197874868300 14 0 0,
  row 403750113125600 14 571081231242500 14 0 0,
  row 612277496824000 14 133399842835800 14 0 0,
  row 552798499951500 14 464931536076000 14 0 0,
  row 998076557362400 15 551275408120500 14 0 0,
  row 604448949320300 14 130802529993800 14 0 0,
  row 392426599814700 14 214490836806200 14 0 0,
  row 622011137690100 14 556725941208400 14 0 0,
  row 371604320686200 14 523066715645100 14 0 0,
  row 854870407111600 15 613408111530300 14 0 0,
  row 142692507282900 14 478380849207100 14 0 0,
  row 713565175262500 16 516181791109900 14 0 0,
  row 533076764328300 14 138164620311100 14 0 0,
  row 449426233535300 15 387670525949500 15 0 0,
  row 295236958221500 14 502949177622300 14 0 0,
  row 350000341653500 14 192316295549000 14 0 0,
  row 619670941318100 14 463333258642300 14 0 0,
  row 510369003189700 14 161665000974300 14 0 0,
  row 318756958740100 14 981731670465900 16 0 0,
  row 166892435745700 14 365616121213900 14 0 0,
  row 444572251030900 14 440409871309200 14 0 0,
  row 522622415242300 14 518118873263900 15 0 0,
  row 437116655027400 14 325485956686900 14 0 0,
  row 597355668969300 14 308677322467700 14 0 0,
  row 208908471460000 14 279788267354200 14 0 0,
  row 465837193682700 14 289267628021700 14 0 0,
  row 482558055281900 14 586104602573900 14 0 0,
  row 373900352499800 14 216823962703300 14 0 0,
  row 114894138653600 14 627181112418100 14 0 0,
  row 155989300834300 14 393685315140400 14 0 0,
  row 551614538361200 14 140414873404300 14 0 0,
  row 611605370056300 14 245243618085400 14 0 0,
  row 507682174601700 14 610229273904000 14 0 0,
  row 816467623207500 15 607276045727600 14 0 0,
  row 136047945367100 14 115483281517100 14 0 0,
  row 272562222992600 14 552754532189700 14 0 0,
  row 605445962849200 15 152503568862900 14 0 0,
  row 857046213521000 15 557068104056900 14 0 0,
  row 355206733827900 14 198124060116000 14 0 0,
  row 309656508531300 14 205006088020100 14 0 0,
  row 636775170977700 15 327747797032100 14 0 0,
  row 484846150393700 14 521069007488600 14 0 0,
  row 133195064365500 14 665327490461100 15 0 0,
  row 495836829774600 15 176794143614800 14 0 0,
  row 223721551570700 14 342174630646500 14 0 0,
  row 333240218857500 14 112714478754700 14 0 0,
  row 578560057601600 14 421479477916100 14 0 0,
  row 981267655970900 16 532490549768700 14 0 0,
  row 949478046823600 15 613576183827100 14 0 0,
  row 173933209568600 15 180230545066600 14 0 0,
  row 142335480066600 14 481229973157400 14 0 0,
  row 231497267529300 15 365754705972300 14 0 0,
  row 101264678261600 15 486667689442500 14 0 0,
  row 523330688126500 14 380934255890600 14 0 0,
  row 400559725751100 14 249463517444300 14 0 0,
  row 536567624202000 14 269996183167800 14 0 0,
  row 428444062061200 14 331845771481600 14 0 0,
  row 427056263657500 14 438270358246600 14 0 0,
  row 595355320106000 14 527106631705400 14 0 0,
  row 111518041771800 14 581959158530200 14 0 0,
  row 386381191818600 14 598093496042800 14 0 0,
  row 126861792830200 14 333729028248300 14 0 0,
  row 490860522326500 14 574297818732700 14 0 0,
  row 374451997688500 14 227807580420000 14 0 0,
  row 417324467053200 14 583574785847700 14 0 0,
  row 591060142885000 14 583889819390200 14 0 0,
  row 248805007823900 14 112221233785800 14 0 0,
  row 112236365288300 14 918225099641600 15 0 0,
  row 495197372490400 14 517476197326600 14 0 0,
  row 511705784551300 14 338161102063900 14 0 0,
  row 610415918047600 14 354619372392200 14 0 0,
  row 118493342982900 14 453320319793400 14 0 0,
  row 350528208610500 14 275616819861600 14 0 0,
  row 228665108814100 14 193439546991800 14 0 0,
  row 187181677548200 15 714992097110900 15 0 0,
  row 314325175543100 14 489981949315400 14 0 0,
  row 246216731601800 14 157241891511500 14 0 0,
  row 425637400468600 14 891219018048900 15 0 0,
  row 497036294142500 14 380082194005500 14 0 0,
  row 237265782489800 14 264471744002900 14 0 0,
  row 423265262772100 14 398779302017900 14 0 0,
  row 392574700113700 15 990882644076400 15 0 0,
  row 309347833044500 14 251614975222000 14 0 0,
  row 556094824821200 14 584919564211800 14 0 0,
  row 507279031007200 14 168166010016200 14 0 0,
  row 499853023109600 14 580414398773700 15 0 0,
  row 256173980217600 14 580076828012300 14 0 0,
  row 408742028411100 14 924111837021600 15 0 0,
  row 251504821795500 14 313977644573500 14 0 0,
  row 523532649744300 14 354944078298400 14 0 0,
  row 108820079579700 14 473554069631900 14 0 0,
  row 471062442481600 14 499828912456100 14 0 0,
  row 285797589644500 15 670951567110200 15 0 0,
  row 224161902081500 14 541097825728400 14 0 0,
  row 665157330527200 16 477831720782100 14 0 0,
  row 128513532458500 14 600902066222200 14 0 0,
  row 298122983453000 15 501044977714700 14 0 0,
  row 612247072618900 14 598094376880900 14 0 0,
  row 425108714894700 14 267996511046800 14 0 0,
  row 346507046079000 14 189423114881000 14 0 0,
  row 579160381535000 14 422075295078000 14 0 0,
  row 414248377294100 14 257178394061700 14 0 0,
  row 210190188949600 14 516976599711900 15 0 0,
  row 152668945695900 14 623907826457900 14 0 0,
  row 239768423609500 14 203118441267700 14 0 0,
  row 575192945678700 15 826607998597900 15 0 0,
  row 559546435292600 14 881935052200800 15 0 0,
  row 509268949065500 14 352094417778900 14 0 0,
  row 444436352785100 14 155143190867100 14 0 0,
  row 310825168766100 14 417861014741200 14 0 0,
  row 260813386107900 14 150676400015700 14 0 0,
  row 363971775338400 14 211825061178200 14 0 0,
  row 174189844570700 15 336325526167800 14 0 0,
  row 390222564672400 14 420042395646000 15 0 0,
  row 497113125073100 14 233136258248700 14 0 0,
  row 167746235711000 14 340027402699200 14 0 0,
  row 423625960400600 14 106605123072400 15 0 0,
  row 592681499868700 14 277906648797900 14 0 0,
  row 434964335196200 14 995145069184000 15 0 0,
  row 570094048270100 14 640244736581700 15 0 0,
  row 660128636343000 15 230352421470500 15 0 0,
  row 221109859275200 14 616462265504800 14 0 0,
  row 494248855112900 14 395456118558000 14 0 0,
  row 145223385638600 14 202828630898400 14 0 0,
  row 552535772143900 14 230404066612800 14 0 0,
  row 410879428362400 14 253846105728000 14 0 0,
  row 734433520998400 15 511105434815200 14 0 0,
  row 354121395136300 14 560113066660300 14 0 0,
  row 403109407215100 14 261434045341100 14 0 0,
  row 418513620360900 14 362472157726400 14 0 0,
  row 172048563686800 14 421456987900800 14 0 0,
  row 275861342031800 14 149691174470400 15 0 0,
  row 421668684209700 14 118781767192200 14 0 0,
  row 257506887663900 15 265570303585800 14 0 0,
  row 480084495675600 15 496989618484400 14 0 0,
  row 389675636155200 15 519246077692600 14 0 0,
  row 370080502355000 15 196035692305700 14 0 0,
  row 436457927663800 14 508242780906800 14 0 0,
  row 215656422211100 14 279377503727300 14 0 0,
  row 545401578523400 14 372614431140900 14 0 0,
  row 159777256217500 14 740408070893700 15 0 0,
  row 582409062146100 14 269744998057700 16 0 0,
  row 357877848283500 14 425329627633500 14 0 0,
  row 372436281242300 14 514807241235400 14 0 0,
  row 542242750793300 14 215358114829400 14 0 0,
  row 239610692443900 14 385275063435100 14 0 0,
  row 280402883868500 14 123323335627000 14 0 0,
  row 163881600624700 14 561048697676700 14 0 0,
  row 897900322447400 15 163962952412300 14 0 0,
  row 321042672551600 14 373710036858300 14 0 0,
  row 530802721162900 14 115841705447800 15 0 0,
  row 219514534107400 14 624350286279600 15 0 0,
  row 508118949158600 14 351037738238500 14 0 0,
  row 434517126444100 14 591612830229900 14 0 0,
  row 261306284799700 14 104226676345600 14 0 0,
  row 284676081768900 14 116678843570000 14 0 0,
  row 492136098941200 14 325472611490100 14 0 0,
  row 113036011745400 15 168721059853000 14 0 0,
  row 422819523227800 14 265754178679400 14 0 0,
  row 300572181160400 15 501308980581900 14 0 0,
  row 783012562120300 15 549531542841800 14 0 0,
  row 380779294271500 14 223698996650500 14 0 0]

/-- `E0[2]`. -/
def E0_2 : List Row := [
  row 628307585044600 14 628307585044600 14 843346615813100 13,
  row 125661517008900 13 0 0 550755324037400 14,
  row 0 0 125661517008900 13 522369390622200 14,
  row 188492275513400 13 188492275513400 13 235286615350600 14,
  row 839968473185700 13 839968473185700 13 157734354343400 14,
  row 529690972111800 15 529690972111800 15 104774731175500 14,
  row 157734354343400 14 157734354343400 14 585647769088900 14,
  row 627955269082400 14 627955269082400 14 628307585044600 14,
  row 628659901006800 14 628659901006800 14 943776293731300 14,
  row 235286615350600 14 235286615350600 14 102132855473900 13,
  row 522369390622200 14 522369390622200 14 141434952443300 13,
  row 120364607287800 13 120364607287800 13 681276682255800 14,
  row 102132855473900 13 102132855473900 13 469400293411000 14,
  row 105938194422400 14 105938194422400 14 710928813549300 13,
  row 575338487833400 14 398149018989300 15 575338487833400 14,
  row 398149018989300 15 575338487833400 14 708489678380800 14,
  row 470573230701200 14 470573230701200 14 627596239577800 14,
  row 681276682255800 14 681276682255800 14 662089011318800 14,
  row 588492683145600 14 588492683145600 14 529690972111800 15,
  row 625677752715600 14 625677752715600 14 167621575850900 12,
  row 630937417373600 14 630937417373600 14 180737049412700 13,
  row 668122486943500 14 550755324037400 14 470573230701200 14,
  row 775522610072000 15 668122486943500 14 630937417373600 14,
  row 141434952443300 13 775522610072000 15 588492683145600 14,
  row 786041939388000 14 141434952443300 13 668122486943500 14,
  row 115067697566700 13 786041939388000 14 548677781246700 14,
  row 705859846051800 14 115067697566700 13 786041939388000 14,
  row 469400293411000 14 705859846051800 14 133679726342500 13,
  row 121680026819000 13 469400293411000 14 393020969694000 14,
  row 709933049012600 15 121680026819000 13 315468708686800 14,
  row 796298037978600 15 709933049012600 15 105938194422400 14,
  row 548677781246700 14 796298037978600 15 606977677066700 14,
  row 628300871502100 14 628314298587000 14 121940329146200 13,
  row 628314298587000 14 628300871502100 14 109770787845600 13,
  row 251323034017800 13 251323034017800 13 649637493022400 14,
  row 117906290908200 13 117906290908200 13 220039146382000 13,
  row 177898456071100 13 548677781246700 14 564317861111100 14,
  row 707937388842400 14 177898456071100 13 863594200395200 14,
  row 373876145370700 14 707937388842400 14 334061243471700 14,
  row 213299079778300 15 373876145370700 14 120364607287800 13,
  row 109770787845600 13 213299079778300 15 117906290908200 13,
  row 882739024718500 14 943776293731300 14 398149018989300 15,
  row 550755324037400 14 882739024718500 14 508862879347800 14,
  row 158907291633500 14 158907291633500 14 254431439673900 14,
  row 117698536629100 13 117698536629100 13 172981823311900 13,
  row 626230042253900 14 626230042253900 14 705859846051800 14,
  row 630385127835200 14 630385127835200 14 259341243351400 13,
  row 167283761588100 12 711345466790000 17 156475290248000 12,
  row 334061243471700 14 167283761588100 12 373876145370700 14,
  row 711345466790000 17 606977677066700 14 922553926617400 14,
  row 413691047269600 14 334061243471700 14 416431196199900 14,
  row 606977677066700 14 413691047269600 14 842924122819500 14,
  row 649637493022400 14 649637493022400 14 0 0,
  row 943776293731300 14 109770787845600 13 707937388842400 14,
  row 119444705696800 14 119444705696800 14 104473878124400 13,
  row 628209533460500 14 628209533460500 14 115067697566700 13,
  row 628405636628600 14 628405636628600 14 110151064807500 13,
  row 629018930511400 14 629018930511400 14 260879031406000 13,
  row 627596239577800 14 627596239577800 14 298643340320800 13,
  row 612765556764300 14 612765556764300 14 473203063030200 14,
  row 643849613324900 14 643849613324900 14 803109220920600 14,
  row 315468708686800 14 315468708686800 14 796298037978600 15,
  row 312838876357800 14 801820933361900 15 214616537775000 14,
  row 801820933361900 15 312838876357800 14 212283920281300 13,
  row 842924122819500 14 708489678380800 14 294246341572800 14,
  row 133679726342500 13 123528526211100 13 775522610072000 15,
  row 123528526211100 13 118562186518800 13 125661517008900 13,
  row 118562186518800 13 842924122819500 14 801820933361900 15,
  row 172601546350000 13 254431439673900 14 469047977448800 14,
  row 548125491708400 14 548125491708400 14 882739024718500 14,
  row 922553926617400 14 922553926617400 14 213299079778300 15,
  row 585647769088900 14 172601546350000 13 648098055044900 13,
  row 254431439673900 14 426598159556600 15 337945437290200 13,
  row 426598159556600 15 214616537775000 14 413691047269600 14,
  row 393020969694000 14 416431196199900 14 312838876357800 14,
  row 214616537775000 14 585647769088900 14 521658045155400 14,
  row 416431196199900 14 125696748605100 13 426598159556600 15,
  row 508862879347800 14 180737049412700 13 157208387877600 13,
  row 125696748605100 13 262983232899000 16 629018930511400 14,
  row 180737049412700 13 453505949168500 14 523080736089000 14,
  row 262983232899000 16 393020969694000 14 239762204517500 12,
  row 453505949168500 14 125626285412700 13 164963613978300 13,
  row 113717046439200 13 508862879347800 14 158907291633500 14,
  row 125626285412700 13 125590382462200 13 763294319021700 14,
  row 125590382462200 13 133679726342500 13 620681001418300 14,
  row 708489678380800 14 113717046439200 13 251586017250700 13,
  row 714306956176700 13 714306956176700 13 121680026819000 13,
  row 803109220920600 14 174801635876000 14 723479417122700 14,
  row 174801635876000 14 183195365792300 13 734245779466900 14,
  row 183195365792300 13 493320851067500 14 962368828516300 14,
  row 493320851067500 14 747752290741400 14 643849613324900 14,
  row 104473878124400 13 104473878124400 13 149453161776900 13,
  row 747752290741400 14 803109220920600 14 866224032724100 14,
  row 294246341572800 14 863594200395200 14 119444705696800 14,
  row 863594200395200 14 294246341572800 14 377247534259600 13,
  row 172981823311900 13 156137475985300 12 586359114555700 14,
  row 156137475985300 12 159259607595700 14 196510484847000 13,
  row 159259607595700 14 130958426730000 13 723867558926300 14,
  row 130958426730000 13 164963613978300 13 683664515223800 14,
  row 164963613978300 13 172981823311900 13 584936423622100 14,
  row 763294319021700 14 204265710947700 13 613351251906500 14,
  row 204265710947700 13 763294319021700 14 453505949168500 14,
  row 121395535413300 13 121395535413300 13 747752290741400 14,
  row 533135752966400 14 533135752966400 14 113717046439200 13,
  row 734245779466900 14 167304636628900 13 250908490120400 12,
  row 627948555540000 14 734245779466900 14 174801635876000 14,
  row 628666614549200 14 627948555540000 14 822391669578000 13,
  row 723479417122700 14 628666614549200 14 337814262742100 15,
  row 151104660976300 13 151104660976300 13 290888114220100 13,
  row 109888081574600 13 109888081574600 13 167304636628900 13,
  row 572950654865300 14 157208387877600 13 154379795624500 12,
  row 962368828516300 14 572950654865300 14 177898456071100 13,
  row 614801073770100 14 962368828516300 14 204265710947700 13,
  row 683664515223800 14 723479417122700 14 416549631229000 13,
  row 157208387877600 13 614801073770100 14 773759572053800 13,
  row 641814096319000 14 641814096319000 14 235812581816400 13,
  row 147123170786400 13 211876388844700 14 330190211189500 13,
  row 211876388844700 14 147123170786400 13 954809471841700 13,
  row 134986733977100 14 134986733977100 14 839968473185700 13,
  row 599921651629400 14 683664515223800 14 455851728198400 13,
  row 604034711426000 14 599921651629400 14 780515857308600 13,
  row 656693518459700 14 604034711426000 14 521758062812000 13,
  row 564317861111100 14 656693518459700 14 150192214397500 12,
  row 652580458663200 14 652580458663200 14 906177374317500 13,
  row 212283920281300 13 723867558926300 14 495153825167800 13,
  row 469047977448800 14 125398533776000 13 161338500000400 12,
  row 125398533776000 13 212283920281300 13 731883759784400 13,
  row 109735556249300 13 624504815425400 14 143233510021600 12,
  row 624504815425400 14 632110354663700 14 323049118787100 12,
  row 632110354663700 14 532747611162900 14 233479128667100 12,
  row 532747611162900 14 110151064807500 13 173904651701300 12,
  row 536804426779700 15 564317861111100 14 162048433049400 12,
  row 235432304854500 13 536804426779700 15 975764418076800 13,
  row 129643007198800 13 235432304854500 13 169717070474400 12,
  row 951718320781700 15 129643007198800 13 226520424291200 12,
  row 199074509494700 14 199074509494700 14 334195404390000 12,
  row 955599738816900 15 951718320781700 15 311902833184200 12,
  row 522577517443900 15 955599738816900 15 0 0,
  row 240729214575600 13 240729214575600 13 0 0,
  row 220039146382000 13 522577517443900 15 0 0,
  row 523080736089000 14 109735556249300 13 0 0,
  row 184226293917800 13 220039146382000 13 0 0,
  row 155420282803100 15 143141680596500 13 0 0,
  row 184510785323500 13 184226293917800 13 0 0,
  row 639897239334900 15 155420282803100 15 0 0,
  row 627755295506200 14 184510785323500 13 0 0,
  row 628859874582900 14 521658045155400 14 0 0,
  row 155104522014400 14 639897239334900 15 0 0,
  row 521658045155400 14 627755295506200 14 0 0,
  row 565029206577900 14 628859874582900 14 0 0,
  row 103092812555200 15 469047977448800 14 0 0,
  row 143141680596500 13 155104522014400 14 0 0,
  row 553569301792400 15 103092812555200 15 0 0,
  row 260879031406000 13 523080736089000 14 0 0,
  row 846724758440500 13 565029206577900 14 0 0,
  row 239424390254800 12 777137714681200 13 0 0,
  row 777137714681200 13 260879031406000 13 0 0,
  row 617998303789000 14 553569301792400 15 0 0,
  row 902799231690100 13 846724758440500 13 0 0,
  row 638616866300100 14 239424390254800 12 0 0,
  row 691585963511300 14 473203063030200 14 0 0,
  row 628297062850600 14 617998303789000 14 0 0,
  row 628318107238600 14 902799231690100 13 0 0,
  row 625462670987800 14 638616866300100 14 0 0,
  row 787567192640300 14 691585963511300 14 0 0,
  row 631152499101300 14 628297062850600 14 0 0,
  row 363462098988700 14 628318107238600 14 0 0,
  row 251586017250700 13 625462670987800 14 0 0,
  row 576049833300200 14 787567192640300 14 0 0,
  row 723867558926300 14 631152499101300 14 0 0,
  row 110151064807500 13 363462098988700 14 0 0,
  row 670967401000200 14 576049833300200 14 0 0,
  row 680565336789000 14 251586017250700 13 0 0,
  row 125924500241800 13 670967401000200 14 0 0,
  row 106649539889200 14 680565336789000 14 0 0,
  row 991769684033200 14 106649539889200 14 0 0,
  row 119262544615600 13 586359114555700 14 0 0,
  row 747816656905000 16 991769684033200 14 0 0,
  row 125662188363200 13 139160190406600 13 0 0,
  row 429233075549900 14 125662188363200 13 0 0,
  row 133416743109600 13 133416743109600 13 0 0,
  row 105754066059400 13 162007726907800 13 0 0,
  row 620829418475500 14 747816656905000 16 0 0,
  row 180529295133600 13 180529295133600 13 0 0,
  row 352315962180100 17 620829418475500 14 0 0,
  row 596668395811200 14 596668395811200 14 0 0,
  row 635785751613600 14 635785751613600 14 0 0,
  row 659946774277900 14 352315962180100 17 0 0,
  row 601999194420100 14 127215719836900 13 0 0,
  row 670256055533400 14 659946774277900 14 0 0,
  row 314153792522300 13 601999194420100 14 0 0,
  row 250570675857700 12 125924500241800 13 0 0,
  row 167304636628900 13 670256055533400 14 0 0,
  row 654615975669100 14 105754066059400 13 0 0,
  row 127215719836900 13 314153792522300 13 0 0,
  row 149453161776900 13 250570675857700 12 0 0,
  row 473203063030200 14 654615975669100 14 0 0,
  row 586359114555700 14 238889411393600 14 0 0,
  row 238889411393600 14 120293472741100 13 0 0,
  row 120293472741100 13 125660845654700 13 0 0,
  row 125660845654700 13 133624497388700 13 0 0,
  row 133624497388700 13 290888114220100 13 0 0,
  row 290888114220100 13 149453161776900 13 0 0,
  row 139160190406600 13 607689022533500 14 0 0,
  row 607689022533500 14 626272068038700 14 0 0,
  row 470111638877800 14 470111638877800 14 0 0,
  row 626272068038700 14 630343102050400 14 0 0,
  row 630343102050400 14 648926147555600 14 0 0,
  row 648926147555600 14 120435741834500 13 0 0,
  row 120435741834500 13 459091012155500 14 0 0,
  row 574627142366600 14 149563331381000 15 0 0,
  row 149563331381000 15 196510484847000 13 0 0,
  row 135217514397100 13 135178700216700 13 0 0,
  row 459091012155500 14 116247475677900 14 0 0,
  row 116247475677900 14 627919443241000 14 0 0,
  row 627919443241000 14 628695726848100 14 0 0,
  row 628695726848100 14 181392945023200 13 0 0,
  row 181392945023200 13 468688947944200 14 0 0,
  row 468688947944200 14 100218373041500 13 0 0,
  row 100218373041500 13 429233075549900 14 0 0,
  row 242728736186200 15 951431329214300 13 0 0,
  row 951431329214300 13 603724421248500 14 0 0,
  row 135178700216700 13 242728736186200 15 0 0,
  row 603724421248500 14 131197210026800 13 0 0,
  row 230135395133400 13 126692445134500 13 0 0,
  row 126692445134500 13 652890748840600 14 0 0,
  row 652890748840600 14 135217514397100 13 0 0,
  row 681988027722500 14 866224032724100 14 0 0,
  row 651476197672300 13 681988027722500 14 0 0,
  row 207754279066000 16 110206267223100 15 0 0,
  row 627243923615600 14 651476197672300 13 0 0,
  row 629371246473500 14 574627142366600 14 0 0,
  row 176547804943700 13 627243923615600 14 0 0,
  row 110206267223100 15 629371246473500 14 0 0,
  row 105226848955600 14 230135395133400 13 0 0,
  row 131197210026800 13 176547804943700 13 0 0,
  row 101772575869600 13 207754279066000 16 0 0,
  row 188755258746300 13 105226848955600 14 0 0,
  row 762658362624000 16 632783784667000 15 0 0,
  row 196510484847000 13 762658362624000 16 0 0,
  row 601646878457900 14 114996563020000 13 0 0,
  row 259341243351400 13 601646878457900 14 0 0,
  row 941146461402400 14 330190211189500 13 0 0,
  row 330190211189500 13 941146461402400 14 0 0,
  row 632783784667000 15 127794507806700 13 0 0,
  row 389418173651000 14 654968291631300 14 0 0,
  row 127794507806700 13 186359284715600 13 0 0,
  row 654968291631300 14 237916447679600 14 0 0,
  row 186359284715600 13 125732651555600 13 0 0,
  row 237916447679600 14 188755258746300 13 0 0,
  row 162007726907800 13 182093303120000 13 0 0,
  row 114996563020000 13 259341243351400 13 0 0,
  row 125732651555600 13 512060109366700 14 0 0,
  row 182093303120000 13 699300889945800 14 0 0,
  row 699300889945800 14 381329181312000 16 0 0,
  row 243567807917100 13 243567807917100 13 0 0,
  row 381329181312000 16 172566314753800 13 0 0,
  row 245831637960200 15 245831637960200 15 0 0,
  row 611240303511900 14 611240303511900 14 0 0,
  row 542987953133300 14 124913700352000 13 0 0,
  row 124913700352000 13 624704789001600 14 0 0,
  row 624704789001600 14 645374866577200 14 0 0,
  row 645374866577200 14 542987953133300 14 0 0,
  row 629012216968900 14 629012216968900 14 0 0,
  row 631910381087600 14 631910381087600 14 0 0,
  row 827382094539200 14 827382094539200 14 0 0,
  row 627602953120200 14 177827321524500 13 0 0,
  row 125453762729800 13 627602953120200 14 0 0,
  row 125651711850500 13 125453762729800 13 0 0,
  row 625919752076500 14 125651711850500 13 0 0,
  row 630695418012600 14 224838485412200 13 0 0,
  row 177969590617800 13 625919752076500 14 0 0,
  row 177827321524500 13 630695418012600 14 0 0,
  row 617286958322300 14 177969590617800 13 0 0,
  row 169216572889100 14 206185625110400 15 0 0,
  row 220412534446200 15 169216572889100 14 0 0,
  row 825769812205400 13 220412534446200 15 0 0,
  row 639328211766900 14 825769812205400 13 0 0,
  row 155086151166200 13 101772575869600 13 0 0,
  row 206185625110400 15 949175677000500 15 0 0,
  row 949175677000500 15 639328211766900 14 0 0,
  row 390391137365000 14 480420920133300 14 0 0,
  row 626782331792200 14 155086151166200 13 0 0,
  row 629832838296900 14 390391137365000 14 0 0,
  row 264845486055900 14 617286958322300 14 0 0,
  row 149854400134800 12 626782331792200 14 0 0,
  row 369492308158900 13 629832838296900 14 0 0,
  row 480420920133300 14 557314280143300 14 0 0,
  row 125671322167300 13 264845486055900 14 0 0,
  row 114036769441100 13 149854400134800 12 0 0,
  row 228057355715700 13 369492308158900 13 0 0,
  row 783412107059000 14 114036769441100 13 0 0,
  row 278704313292500 14 125671322167300 13 0 0,
  row 628265559259800 14 783412107059000 14 0 0,
  row 628349610829400 14 119262544615600 13 0 0,
  row 172566314753800 13 228057355715700 13 0 0,
  row 124107314180900 13 278704313292500 14 0 0,
  row 628159167987400 14 628265559259800 14 0 0,
  row 628456002101800 14 628349610829400 14 0 0,
  row 124165883695100 13 124107314180900 13 0 0,
  row 109841922392200 13 628159167987400 14 0 0,
  row 109699653298900 13 628456002101800 14 0 0,
  row 159618637100300 14 124165883695100 13 0 0,
  row 406121914944300 14 159618637100300 14 0 0,
  row 161000685737700 12 613351251906500 14 0 0,
  row 119333679162200 13 168584824563900 13 0 0,
  row 846082864445300 15 406121914944300 14 0 0,
  row 853196319113200 15 161000685737700 12 0 0,
  row 584936423622100 14 846082864445300 15 0 0,
  row 557314280143300 14 389418173651000 14 0 0,
  row 866224032724100 14 853196319113200 15 0 0,
  row 123234229647100 13 156710817186700 13 0 0,
  row 125869271288000 13 125869271288000 13 0 0,
  row 533390017344500 14 119333679162200 13 0 0,
  row 117129553817800 13 123234229647100 13 0 0,
  row 977910856796600 14 490730201388900 14 0 0,
  row 188421140966700 13 188421140966700 13 0 0,
  row 521758062812000 13 521758062812000 13 0 0,
  row 104199863231400 13 142269093358000 16 0 0,
  row 615153389732300 14 235812581816400 13 0 0,
  row 188527507109600 13 115138832113400 13 0 0,
  row 433711614224500 15 104199863231400 13 0 0,
  row 628636219748100 14 615153389732300 14 0 0,
  row 627978950341000 14 188527507109600 13 0 0,
  row 490730201388900 14 433711614224500 15 0 0,
  row 117643307675300 13 628636219748100 14 0 0,
  row 142269093358000 16 627978950341000 14 0 0,
  row 124559454336700 13 117643307675300 13 0 0,
  row 641461780356800 14 124559454336700 13 0 0,
  row 115138832113400 13 641461780356800 14 0 0,
  row 606266331600000 14 135065112744300 15 0 0,
  row 349603271752100 14 109699653298900 13 0 0,
  row 283859334151600 15 606266331600000 14 0 0,
  row 310493001777500 14 532678671877700 14 0 0,
  row 613351251906500 14 310493001777500 14 0 0,
  row 408794405128300 13 408794405128300 13 0 0,
  row 224838485412200 13 584936423622100 14 0 0,
  row 158195946166700 14 158195946166700 14 0 0,
  row 938800586822100 14 650348838489200 14 0 0,
  row 532678671877700 14 173566837438600 12 0 0,
  row 650348838489200 14 124898858646300 13 0 0,
  row 173566837438600 12 267359452685100 13 0 0,
  row 135065112744300 15 246026124296700 13 0 0,
  row 124898858646300 13 417142541666600 14 0 0,
  row 267359452685100 13 533390017344500 14 0 0,
  row 417142541666600 14 723225152744600 14 0 0,
  row 246026124296700 13 322711304524400 12 0 0,
  row 723225152744600 14 938800586822100 14 0 0,
  row 322711304524400 12 554719925322300 14 0 0,
  row 554719925322300 14 728505617157000 13 0 0,
  row 728505617157000 13 188457043917200 13 0 0,
  row 108739859720000 13 972386275449400 13 0 0,
  row 188457043917200 13 427451822922200 14 0 0,
  row 972386275449400 13 349603271752100 14 0 0,
  row 624494293231400 14 624494293231400 14 0 0,
  row 292966153637800 13 292966153637800 13 0 0,
  row 427451822922200 14 632120876857700 14 0 0,
  row 632120876857700 14 123203200629300 13 0 0,
  row 123203200629300 13 701895244766800 14 0 0,
  row 172672680896700 13 147886664911200 14 0 0,
  row 701895244766800 14 692297308978100 14 0 0,
  row 149190178544000 13 233141314404400 12 0 0,
  row 147886664911200 14 171570618224500 13 0 0,
  row 692297308978100 14 149190178544000 13 0 0,
  row 171570618224500 13 172672680896700 13 0 0,
  row 233141314404400 12 629730275978200 14 0 0,
  row 137605987578600 13 137605987578600 13 0 0,
  row 629730275978200 14 787214876678100 14 0 0,
  row 787214876678100 14 626884894111000 14 0 0,
  row 626884894111000 14 415719850733100 14 0 0,
  row 415719850733100 14 977910856796600 14 0 0,
  row 156710817186700 13 109841922392200 13 0 0,
  row 318519215191400 14 125280187827600 13 0 0,
  row 125280187827600 13 161710618786700 12 0 0,
  row 161710618786700 12 318519215191400 14 0 0,
  row 564219809527000 14 627134647754400 14 0 0,
  row 213935419480800 13 213935419480800 13 0 0,
  row 629480522334700 14 629480522334700 14 0 0,
  row 627134647754400 14 219541575691100 13 0 0,
  row 172530411803300 13 744555060722400 14 0 0,
  row 744555060722400 14 956289131668400 15 0 0,
  row 419484704888700 15 116169760238900 13 0 0,
  row 956289131668400 15 227794372482800 13 0 0,
  row 116169760238900 13 108739859720000 13 0 0,
  row 227794372482800 13 316391892333500 15 0 0,
  row 136255336451200 13 136255336451200 13 0 0,
  row 168584824563900 13 172530411803300 13 0 0,
  row 298643340320800 13 627914338782000 14 0 0,
  row 574986171871200 14 138556157449700 14 0 0,
  row 627914338782000 14 417604133490000 14 0 0,
  row 138556157449700 14 628700831307100 14 0 0,
  row 417604133490000 14 574986171871200 14 0 0,
  row 628700831307100 14 590570225936300 14 0 0,
  row 209953929290900 13 209953929290900 13 0 0,
  row 590570225936300 14 733534434000100 14 0 0,
  row 393246262530000 17 543699298600000 14 0 0,
  row 733534434000100 14 123457391664500 13 0 0,
  row 123457391664500 13 380276961914000 16 0 0,
  row 267096469452200 13 267096469452200 13 0 0,
  row 640877755175500 15 666044944152800 14 0 0,
  row 666044944152800 14 137577383655700 14 0 0,
  row 137577383655700 14 448096502097700 13 0 0,
  row 380276961914000 16 640877755175500 15 0 0,
  row 448096502097700 13 377373591082700 15 0 0,
  row 205972439101000 13 393246262530000 17 0 0,
  row 108181353421300 13 164603334374000 13 0 0,
  row 377373591082700 15 108181353421300 13 0 0,
  row 298263063358900 13 564219809527000 14 0 0,
  row 193789185234500 13 298263063358900 13 0 0,
  row 692395360562100 14 193789185234500 13 0 0,
  row 306661549654500 13 692395360562100 14 0 0,
  row 614745047970900 14 306661549654500 13 0 0,
  row 263672548765700 14 614745047970900 14 0 0,
  row 681628998217900 14 263672548765700 14 0 0,
  row 641870122118300 14 681628998217900 14 0 0,
  row 123599660757800 13 641870122118300 14 0 0,
  row 165226597211200 13 123599660757800 13 0 0,
  row 104545012671100 13 205972439101000 13 0 0,
  row 316391892333500 15 282869904886500 13 0 0,
  row 282869904886500 13 605559964678300 14 0 0,
  row 219541575691100 13 625567436114300 14 0 0,
  row 117200688364500 13 631047733974800 14 0 0,
  row 605559964678300 14 165226597211200 13 0 0,
  row 512060109366700 14 117200688364500 13 0 0,
  row 179960312322200 13 275114678785800 13 0 0,
  row 625567436114300 14 651055205410900 14 0 0,
  row 631047733974800 14 546952554418200 14 0 0,
  row 546952554418200 14 169379256211600 12 0 0,
  row 103442949998900 13 263083906245000 15 0 0,
  row 651055205410900 14 394625859367500 15 0 0,
  row 169379256211600 12 839011036599100 14 0 0,
  row 839011036599100 14 224344997071500 15 0 0,
  row 224344997071500 15 298643340320800 13 0 0,
  row 612929704499100 14 612929704499100 14 0 0,
  row 104402743577800 13 117129553817800 13 0 0,
  row 643685465590100 14 643685465590100 14 0 0,
  row 938095954897700 14 201990948911100 13 0 0,
  row 593415139993000 14 593415139993000 14 0 0,
  row 247057052422300 13 247057052422300 13 0 0,
  row 867196996438100 14 867196996438100 14 0 0,
  row 709662615670900 14 709662615670900 14 0 0,
  row 172718840079000 13 172718840079000 13 0 0,
  row 707550670921900 13 707550670921900 13 0 0,
  row 663200030096100 14 437761104177700 14 0 0,
  row 620681001418300 14 663200030096100 14 0 0,
  row 487398599067100 13 487398599067100 13 0 0,
  row 159067641356100 13 159067641356100 13 0 0,
  row 309788369853100 14 661232925234300 15 0 0,
  row 661232925234300 15 345963646623900 13 0 0,
  row 345963646623900 13 198009458721200 13 0 0,
  row 284491405673000 16 284491405673000 16 0 0,
  row 201990948911100 13 266607065866800 15 0 0,
  row 303559973080000 13 148417057190000 17 0 0,
  row 628166797766700 14 303559973080000 13 0 0,
  row 628448372322400 14 628166797766700 14 0 0,
  row 198048272901500 13 628448372322400 14 0 0,
  row 287669243916700 13 244924061624500 13 0 0,
  row 244924061624500 13 204528694180600 13 0 0,
  row 204528694180600 13 247341543827900 13 0 0,
  row 235812581816400 13 167959390113600 12 0 0,
  row 247341543827900 13 333857590127200 12 0 0,
  row 167959390113600 12 162420551835700 12 0 0,
  row 333857590127200 12 314416775755200 13 0 0,
  row 162420551835700 12 526700696036500 13 0 0,
  row 895699901200000 13 895699901200000 13 0 0,
  row 526700696036500 13 333265787298600 13 0 0,
  row 333265787298600 13 385265743593300 13 0 0,
  row 385265743593300 13 228278104651900 12 0 0,
  row 228278104651900 12 282372334195600 13 0 0,
  row 839738353423100 13 287669243916700 13 0 0,
  row 840198592948200 13 839738353423100 13 0 0,
  row 782637094218000 13 840198592948200 13 0 0,
  row 311565018921500 12 782637094218000 13 0 0,
  row 178430047191000 12 311565018921500 12 0 0,
  row 588645439167800 13 178430047191000 12 0 0,
  row 784237045171300 13 588645439167800 13 0 0,
  row 101426208771900 12 784237045171300 13 0 0,
  row 566002793005900 13 101426208771900 12 0 0,
  row 424567840562700 13 566002793005900 13 0 0,
  row 245707466105300 12 424567840562700 13 0 0,
  row 167993694637100 12 245707466105300 12 0 0,
  row 605304889975300 13 167993694637100 12 0 0,
  row 965629990194600 13 605304889975300 13 0 0,
  row 244287600007200 12 965629990194600 13 0 0,
  row 143571324284400 12 244287600007200 12 0 0,
  row 836590330558200 13 836590330558200 13 0 0,
  row 843346615813100 13 316428228673900 12 0 0,
  row 316428228673900 12 405998218793900 12 0 0,
  row 405998218793900 12 180525541814500 12 0 0,
  row 180525541814500 12 843346615813100 13 0 0,
  row 256853751708100 12 256853751708100 12 0 0,
  row 244997533056200 12 244997533056200 12 0 0,
  row 156813104510700 12 156813104510700 12 0 0,
  row 394851933191000 12 394851933191000 12 0 0,
  row 154717609887200 12 143571324284400 12 0 0,
  row 226858238553900 12 226858238553900 12 0 0,
  row 165863895490100 12 165863895490100 12 0 0,
  row 221995028801500 12 221995028801500 12 0 0,
  row 305281943071000 12 305281943071000 12 0 0,
  row 252666170481200 12 252666170481200 12 0 0,
  row 417144504396800 12 417144504396800 12 0 0]

/-- epv00_data.rs:2-1512. -/
def E0 : Table := [E0_0, E0_1, E0_2]

end Verif.Epv
