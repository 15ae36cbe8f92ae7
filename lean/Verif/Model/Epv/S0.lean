import Verif.Model.Epv.Table

/-!
# `S0` of `crates/tofas/src/epv00_data.rs` (lines 1784-2430)

`row a i b j c k` is the row `[a*10^-i, b*10^-j, c*10^-k]`; digits as in the source.
-/

namespace Verif.Epv

/-- `S0[0]`. -/
def S0_0 : List Row := [
  row 495675753641000 17 495539232012600 17 118125512298600 18,
  row 271849007252200 17 272232516739200 17 112777765109500 18,
  row 154649397434400 17 154657992534600 17 477775440180600 19,
  row 836685527634100 18 836314025296600 18 112935428577200 19,
  row 293677794211700 18 338579268360300 18 (-114954363712300) 19,
  row 120131743946900 18 120119222161300 18 329873051230600 20,
  row 757855088723000 19 758712572055400 19 273337670607900 20,
  row 194178736777300 19 196415536125000 19 942638965727000 21,
  row 188922776599100 19 189190036490900 19 818751774955200 21,
  row 193789696861300 19 193737343335600 19 408044787181900 21,
  row 143450611087300 19 143713994135100 19 316997301702800 21,
  row 140665991158000 19 140626768309900 19 243809861554900 21,
  row 117902230020200 19 117870308034600 19 260189751723500 21,
  row 808586446095900 20 807983518604100 20 231455808007900 21,
  row 762275296761500 20 762325359465200 20 196254954800200 21,
  row 620917113906600 20 624866748397100 20 218051828792500 21,
  row 436643563397000 20 436635369503800 20 145138244286800 21,
  row 379212488934800 20 382910156889500 20 135843900738900 21,
  row 315454896340200 20 317573377390800 20 105058589802800 21,
  row 308835988294200 20 309243790215900 20 105002987018600 21,
  row 278844090213600 20 287416881215400 20 993492067980000 22,
  row 303992845637600 20 304011932182600 20 104839533156000 21,
  row 227225845767900 20 269972330800600 20 837014719666800 22,
  row 216200705795700 20 213483268353400 20 798985651099800 22,
  row 176763285573700 20 177041213943300 20 544122165523300 22,
  row 134941345936200 20 137726420937300 20 461081290678400 22,
  row 117014190047600 20 112781453896000 20 392302280344400 22,
  row 105435526682000 20 105560809013000 20 261072558212800 22,
  row 980082246161000 21 980267386142000 21 245527976772100 22,
  row 109120374993100 20 109032946195100 20 237553070652500 22,
  row 696023671591300 21 695959002509000 21 178296757755300 22,
  row 568925729690900 21 566491452954200 21 158168709523800 22,
  row 661317213580200 21 660778776359900 21 159465767246100 22,
  row 627770251757100 21 626972574283800 21 156344861504000 22,
  row 630488406669900 21 630188969786300 21 146362425852500 22,
  row 489785046738200 21 489104266286100 21 133158505667300 22,
  row 375914859878600 21 345708312329000 21 113063455763700 22,
  row 311052054819500 21 303255996731400 21 102894960714500 22,
  row 306470835978000 21 284113398890300 21 102407497161800 22,
  row 285634716824100 21 285556444443200 21 882695606030300 23,
  row 284094551428800 21 276515713503800 21 857223017154100 23,
  row 237895159940500 21 238231246503400 21 764933264354400 23,
  row 271422948141700 21 280806036507700 21 858167329103300 23,
  row 232355171730700 21 233217523440500 21 843058930093800 23,
  row 188179051221900 21 232248819965900 21 777616550101200 23,
  row 226135396837100 21 188185025842300 21 831107023440800 23,
  row 221454638984800 21 219611139280800 21 692736521258200 23,
  row 218491559493300 21 218381033551900 21 679157420859800 23,
  row 200016493793600 21 200273309332600 21 559310081183900 23,
  row 196610513671900 21 196711176722900 21 455338185302100 23,
  row 190474233262400 21 156847325054300 21 575800045006800 23,
  row 165739970503100 21 185252831430000 21 428128345713300 23,
  row 157407053398700 21 183211122644700 21 420693566109700 23,
  row 183226165103900 21 174680550231000 21 421375164183700 23,
  row 173361534656900 21 155573096665000 21 531050623987800 23,
  row 154912401449600 21 155488346255900 21 382745034132000 23,
  row 163704471383800 21 163838056874600 21 429243524118700 23,
  row 112342008238300 21 115993859364000 21 318978070228900 23,
  row 108375416574000 21 108342796569500 21 322661192806900 23,
  row 115663801265500 21 115648036943100 21 289389760883000 23,
  row 114254878513400 21 114130886009500 21 323985202457800 23,
  row 792146389596500 22 791314647094600 22 295689222220000 23,
  row 742860028523100 22 743975246373300 22 298017791243700 23,
  row 832321124674700 22 728027710407900 22 316372569077600 23,
  row 725759511631200 22 831956771913600 22 266226239911800 23,
  row 711118583323600 22 713770554929000 22 276668913572900 23,
  row 686809038371600 22 690082539622500 22 241160027846400 23,
  row 722641997417500 22 724575721663500 22 248352769513100 23,
  row 695564238317700 22 696116569625500 22 778877727659000 24,
  row 749213929633100 22 757180445689000 22 0 0,
  row 659836312885700 22 660542572190400 22 0 0,
  row 738114729338500 22 737547735724800 22 0 0,
  row 640290962403200 22 704166495147000 22 0 0,
  row 623745426385700 22 632219953576300 22 0 0,
  row 524119854401600 22 524438027919100 22 0 0,
  row 514446385391800 22 514312570498800 22 0 0,
  row 586816477229900 22 587186631937300 22 0 0,
  row 623319566915100 22 630082257387100 22 0 0,
  row 606846379142200 22 606215427154800 22 0 0,
  row 435936113506500 22 436191233997600 22 0 0,
  row 468651036682600 22 441700592006700 22 0 0,
  row 375897728722500 22 468680674993600 22 0 0,
  row 428205197477800 22 375889213230500 22 0 0,
  row 515376538611300 22 515135133231900 22 0 0,
  row 457512938718800 22 455468357857200 22 0 0,
  row 332684493328600 22 344238138533800 22 0 0,
  row 374861745098400 22 283109395493300 22 0 0,
  row 281675666149900 22 375626709008400 22 0 0,
  row 341275040503900 22 281637467989200 22 0 0,
  row 265579676177600 22 341930702556900 22 0 0,
  row 296359792945800 22 290425049423900 22 0 0,
  row 253952373478100 22 247173451120600 22 0 0,
  row 228308791413900 22 253962083187200 22 0 0,
  row 232130979933100 22 228101786800700 22 0 0,
  row 254965764975000 22 227531947333500 22 0 0,
  row 229046230397700 22 254775536844200 22 0 0,
  row 194539852291400 22 228597966931700 22 0 0,
  row 184917151263800 22 191338656099400 22 0 0,
  row 164719983425400 22 180902052514700 22 0 0,
  row 152953076527300 22 164921330020100 22 0 0,
  row 143319933997800 22 183497279393200 22 0 0,
  row 172913419360200 22 143955064813800 22 0 0,
  row 171646393134600 22 148764545704100 22 0 0,
  row 139120606137800 22 173172951666000 22 0 0,
  row 140474666192400 22 171774716356700 22 0 0,
  row 141045239945500 22 141819043037400 22 0 0,
  row 108982877216800 22 140484413487300 22 0 0,
  row 104737456494800 22 140984284653800 22 0 0,
  row 135827912653200 22 109094834629100 22 0 0,
  row 102045647614800 22 135757732361200 22 0 0,
  row 103342873532800 22 101815406196000 22 0 0,
  row 141243584154000 22 141207397210900 22 0 0,
  row 972275937157400 23 103093832649600 22 0 0,
  row 965733408470400 23 118008156710400 22 0 0,
  row 108364114869000 22 970851057565000 23 0 0,
  row 106731840383800 22 963768966344700 23 0 0,
  row 106236620197600 22 106891042938900 22 0 0,
  row 123636414926600 22 106371617933600 22 0 0,
  row 109275948959300 22 123485871381400 22 0 0,
  row 891206936289900 23 891263118973800 23 0 0,
  row 965646770797000 23 103637828553400 22 0 0,
  row 809838615013500 23 966779850156100 23 0 0,
  row 785771467500000 23 810831420190200 23 0 0,
  row 728845594064600 23 764836432462800 23 0 0,
  row 945059595055200 23 728613682840600 23 0 0,
  row 938171824753700 23 944823774391300 23 0 0,
  row 707905264603800 23 937427610642800 23 0 0,
  row 925900441534400 23 710022628746200 23 0 0,
  row 825980149974200 23 925305665957100 23 0 0,
  row 647633435577900 23 663643214550400 23 0 0,
  row 598402149200700 23 646997531293200 23 0 0,
  row 598954686318100 23 733584972976500 23 0 0,
  row 623310860602300 23 874342120585500 23 0 0,
  row 687729914996500 23 599363574449400 23 0 0,
  row 831123422719000 23 598100847969300 23 0 0,
  row 659947283241400 23 618853514583800 23 0 0,
  row 616049109654900 23 659607401756600 23 0 0,
  row 616477204389100 23 663081512622600 23 0 0,
  row 636324868445000 23 615677283004000 23 0 0,
  row 644858752099900 23 644696056301400 23 0 0,
  row 643166228397700 23 642932442466800 23 0 0,
  row 635122315847400 23 630223239646500 23 0 0,
  row 547672139345100 23 639924443615900 23 0 0,
  row 534177257261900 23 547496517255800 23 0 0,
  row 533705575830200 23 533929319069200 23 0 0,
  row 537312081678700 23 533473368338900 23 0 0,
  row 539235170542600 23 539266578211000 23 0 0,
  row 668849585020500 23 668207567378900 23 0 0,
  row 507200366036200 23 507913049596000 23 0 0,
  row 507072665045500 23 507775979326100 23 0 0,
  row 565801295003200 23 483203736831000 23 0 0,
  row 483550992485400 23 646327967480200 23 0 0,
  row 647982197801200 23 624059277156000 23 0 0,
  row 623063649498000 23 467201352149300 23 0 0,
  row 464923951621300 23 650065075034800 23 0 0,
  row 648732579270000 23 634416138905300 23 0 0,
  row 468282368277000 23 468251837064600 23 0 0,
  row 570423080497600 23 532946001559100 23 0 0,
  row 612541358548900 23 570158867589800 23 0 0,
  row 603582503818700 23 603069086721100 23 0 0,
  row 433112346230300 23 433625631265500 23 0 0,
  row 468110768514300 23 468849880897500 23 0 0,
  row 466910582965500 23 467557860933500 23 0 0,
  row 513882360236500 23 422557811215800 23 0 0,
  row 461585666453400 23 513942223002800 23 0 0,
  row 449691670219700 23 461999509357100 23 0 0,
  row 427847904294500 23 449477625546100 23 0 0,
  row 384052550393200 23 427402627678800 23 0 0,
  row 486663650968500 23 501814178935300 23 0 0,
  row 352610063929600 23 486616395218100 23 0 0,
  row 393955848807500 23 411198602050100 23 0 0,
  row 404126877257600 23 335614278495000 23 0 0,
  row 394876184285300 23 407057555455100 23 0 0,
  row 325839455002900 23 325745185727800 23 0 0,
  row 325789704876100 23 325697370302600 23 0 0,
  row 384255903129800 23 383077150864000 23 0 0,
  row 310992009544800 23 372502400596200 23 0 0,
  row 313223777511900 23 313676392175600 23 0 0,
  row 394218942151000 23 379514725619400 23 0 0,
  row 379697228534000 23 287734222991100 23 0 0,
  row 399564023368800 23 307693179880500 23 0 0,
  row 287501372741400 23 273476594527300 23 0 0,
  row 307371993284400 23 273340529688500 23 0 0,
  row 273101658007500 23 289855235341000 23 0 0,
  row 272954989654600 23 289373610368100 23 0 0,
  row 333937289244900 23 309571773413700 23 0 0,
  row 289883376420400 23 263619042583200 23 0 0,
  row 289453654936200 23 364551209553700 23 0 0,
  row 309687247384300 23 280817354772300 23 0 0,
  row 263567232681000 23 262501286688800 23 0 0,
  row 364930269700100 23 257223399565100 23 0 0,
  row 312795458589500 23 260423882479200 23 0 0,
  row 261604017394700 23 259688638523900 23 0 0,
  row 259739585986000 23 322805730426400 23 0 0,
  row 259328617221000 23 248160179825200 23 0 0,
  row 248182358574700 23 274597749886400 23 0 0,
  row 274221955072500 23 266987883381100 23 0 0,
  row 319955846961000 23 320398661171100 23 0 0,
  row 266608854295700 23 335496122721200 23 0 0,
  row 239706743058000 23 240040732455800 23 0 0,
  row 237657077273800 23 237990585980200 23 0 0,
  row 254722800788700 23 255084430218700 23 0 0,
  row 226557559411400 23 226882421100100 23 0 0,
  row 246438143058500 23 246470089120400 23 0 0,
  row 243340852704400 23 243681472602400 23 0 0,
  row 244360550907600 23 244362389474500 23 0 0,
  row 231977926246500 23 231870178383800 23 0 0,
  row 228462283546500 23 228444870025600 23 0 0,
  row 246726875078300 23 246884812351000 23 0 0,
  row 280851349278200 23 281405235030300 23 0 0,
  row 232952893253200 23 224366275522000 23 0 0,
  row 969863953281700 24 233079585594100 23 0 0,
  row 0 0 975767903840400 24 0 0]

/-- `S0[1]`. -/
def S0_1 : List Row := [
  row 374107375178900 14 217046731367900 14 460791898916400 15,
  row 401601151142500 14 244443368219600 14 416914633129600 15,
  row 217052833064200 14 599277928154600 15 458265700713000 14,
  row 233961407529400 14 768735631080100 15 575873514248000 14,
  row 0 0 0 0 0 0,
  row 409073635330500 14 252003560151400 14 597880199462500 14,
  row 324151808814000 14 166995400644900 14 766541369104000 15,
  row 101220206433000 14 570774396334300 14 371020126583800 14,
  row 389252041644000 14 232096067993700 14 339067560580200 15,
  row 479777944116100 14 322694068955500 14 455229664008800 15,
  row 386896069793300 14 230162690809600 14 344545589932100 14,
  row 475976655739700 15 518857926554200 14 566467515064800 14,
  row 777496152059800 15 548948324847600 14 193189409569700 14,
  row 325465447146500 14 168375183526400 14 366631911557400 15,
  row 422763310348900 14 265640046296100 14 316741169902000 14,
  row 279182832571100 15 499277536205500 14 154442074658000 14,
  row 444045487592500 14 286970627967800 14 158375674007000 14,
  row 515639384235600 14 357213135995000 14 523994175828000 14,
  row 615700573009300 14 453537253004500 14 226695835285900 14,
  row 249456755316300 14 923015331790900 15 271149525035400 14,
  row 493431874798900 14 336314376110100 14 111620815139600 14,
  row 489507770264000 14 332425089567500 14 340861960020600 14,
  row 527839406476400 14 291788244192800 15 381045940108700 14,
  row 580297801909900 14 422099720248700 14 376991047364700 14,
  row 341534659519300 16 474731849646200 14 241699490337400 14,
  row 200164323075500 14 430505846240100 15 585850333699400 14,
  row 242475049162000 14 853817724074000 15 335417001012500 15,
  row 312331148757600 14 155180074258000 14 541060064632400 14,
  row 302625808813000 14 145964673537700 14 612021668140300 14,
  row 315781167034700 14 158735122871100 14 605544342614300 14,
  row 821957054231300 15 553444262876600 14 314610870800400 14,
  row 132305237523600 14 603067300329700 14 625549608981900 15,
  row 276534888159800 15 498950723392700 14 378260430026100 14,
  row 579406446638200 14 422295180457200 14 199777573319600 14,
  row 732355538078700 15 544431666912600 14 173631679208800 15,
  row 306246423539900 14 149055283978400 14 433194183074700 14,
  row 458829046966400 14 303047548604900 14 615201775182500 14,
  row 137429953657200 14 265203879363200 14 210179261463700 15,
  row 422226748504700 14 127674478682900 14 407183321107400 14,
  row 371420294497300 14 214336867473300 14 486163368814500 15,
  row 284797287588200 14 544418610907700 14 526819072430200 14,
  row 376207256338800 14 219052113759300 14 513454341710600 14,
  row 103604998003100 14 573519506484100 14 292021814668100 14,
  row 468238859907600 15 948198552485900 16 360457661910800 14,
  row 479056542541800 14 518049936153300 14 377294224979200 14,
  row 166914491221200 14 321978827388500 14 620041232988800 14,
  row 393771728161400 14 236694115976100 14 454335311343700 14,
  row 112916984509900 15 482544511091500 14 288218840623800 14,
  row 403000963848800 14 245714899530700 14 177664689278000 14,
  row 874595578683400 15 558629154545900 14 394961761124000 14,
  row 591974359896400 14 370800312332000 14 385925177507500 14,
  row 254914148488400 14 431063815156000 14 146629463120600 14,
  row 527753302023000 14 149466532265600 14 542177601170600 14,
  row 306468812777700 14 145137850078400 14 341204899332200 14,
  row 301143279909400 14 106804041819800 14 542164137099500 15,
  row 400556913235900 14 244257903546100 14 888731452499500 15,
  row 183137596663200 14 259791342062500 15 140504375719400 14,
  row 118027040757800 14 583451202128000 14 106004929344500 14,
  row 341410132086300 15 505403317795000 14 627085889744200 14,
  row 613047945259400 15 532567743245700 14 511756322330100 14,
  row 372476194884600 14 215340392385700 14 407909223798300 14,
  row 243542558936100 14 864284684702700 15 159491702170400 14,
  row 354214439875300 14 197062849621300 14 525878766756400 14,
  row 352505807235400 14 607330725060900 14 385458922547900 14,
  row 136429943198200 14 195437192833400 14 356132643018700 14,
  row 246047887580800 14 890498944090900 15 318073208683000 15,
  row 439732767070400 14 282571771497700 14 332479833505800 14,
  row 404264730890500 14 248167751333100 14 416906929194700 15,
  row 286504790608500 14 129295531297800 14 190056990821500 14,
  row 501427899421500 14 342751757506900 14 0 0,
  row 237673002049200 14 805219270149200 15 0 0,
  row 327299038424400 14 170507639008800 14 0 0,
  row 530229095513800 14 484835696789100 15 0 0,
  row 544414442533200 14 387806947390900 14 0 0,
  row 421535957920500 14 264556054412500 14 0 0,
  row 121891668991600 15 483448610137000 14 0 0,
  row 236940200221300 14 798147254890000 15 0 0,
  row 125492224240300 14 597939878828100 14 0 0,
  row 567971376043100 14 410865540275600 14 0 0,
  row 609721964164600 15 532262431928000 14 0 0,
  row 478623104143100 14 624081735928400 14 0 0,
  row 116736806813900 14 321497730115600 14 0 0,
  row 151947106431900 14 587980963476500 14 0 0,
  row 186053232298400 14 289337768800700 15 0 0,
  row 763285788715800 15 547542714412200 14 0 0,
  row 129821948528500 14 599203479664000 14 0 0,
  row 104651032106200 14 536735027391400 14 0 0,
  row 343452234619000 14 575817128542000 14 0 0,
  row 252376627031800 14 186371870092300 14 0 0,
  row 290442226019400 14 952434753413000 15 0 0,
  row 592390043114900 15 530447161560200 14 0 0,
  row 485194772256700 14 129706979353000 14 0 0,
  row 340049859549600 14 328112608337500 14 0 0,
  row 578909914867300 14 182912213316500 14 0 0,
  row 399185647979200 16 579719816018100 14 0 0,
  row 278856757705200 14 475269770833000 14 0 0,
  row 329089699817600 14 122320529288600 14 0 0,
  row 269806012936700 14 175753299338900 14 0 0,
  row 301673564408500 14 424611610879100 14 0 0,
  row 557304311617800 14 144516289062700 14 0 0,
  row 148119235614700 14 112691756722500 14 0 0,
  row 142281753893300 14 616075683476400 14 0 0,
  row 346946890185500 14 435876193179200 14 0 0,
  row 612243622054700 14 613445675334400 14 0 0,
  row 164776564193600 14 189818608445500 14 0 0,
  row 598972916196400 14 418028674126600 14 0 0,
  row 283370550937100 14 765405356541200 16 0 0,
  row 509069000733100 15 441861242031200 14 0 0,
  row 512899026283600 14 126061568613100 14 0 0,
  row 963277288080800 15 355824881869000 14 0 0,
  row 322377931841800 14 567608724125600 14 0 0,
  row 241027157272100 14 839439263242200 15 0 0,
  row 233353139569000 14 165359327406400 14 0 0,
  row 619927097416800 14 128580259203600 14 0 0,
  row 286422229292900 14 763188948810600 15 0 0,
  row 583345886656800 15 463064264917600 14 0 0,
  row 430775398949400 14 529493403216500 14 0 0,
  row 287391787059300 14 273626680083200 14 0 0,
  row 295988726673300 14 130289114657000 14 0 0,
  row 514121370256200 14 357041599362100 14 0 0,
  row 453218246232300 14 423669344094900 14 0 0,
  row 226890633837900 14 296076889239800 14 0 0,
  row 405554426074500 14 698778164684100 15 0 0,
  row 535790165514200 14 249901786386300 14 0 0,
  row 426492696393900 14 378742695166500 14 0 0,
  row 748936697657600 16 269435433298300 14 0 0,
  row 192331105287400 14 478712127706400 14 0 0,
  row 297025685343800 14 353023879210100 15 0 0,
  row 332705631469700 14 139947892566400 14 0 0,
  row 295492550572700 14 347957543844700 14 0 0,
  row 913875310582900 15 138366996480000 14 0 0,
  row 324446408203100 14 124369816689800 14 0 0,
  row 499523263840300 15 377616428930100 14 0 0,
  row 283498723344900 14 562712211359600 14 0 0,
  row 220295183575800 14 167433663675200 14 0 0,
  row 447858146261800 14 521492520867200 14 0 0,
  row 514585869641100 14 290765326812400 14 0 0,
  row 376297669791100 15 212764366965800 14 0 0,
  row 316224671868500 14 508216080329500 14 0 0,
  row 344269330211900 14 187210091690500 14 0 0,
  row 897754913660600 15 561027610357700 14 0 0,
  row 430644741036900 14 159215204960700 14 0 0,
  row 388852917785500 14 274621442153200 14 0 0,
  row 265556066251200 14 231766637438300 14 0 0,
  row 516499073594600 14 108472496115600 14 0 0,
  row 604121455345600 14 359410606774500 14 0 0,
  row 917776348593200 15 563025436560600 14 0 0,
  row 308960812693700 14 151848004173200 14 0 0,
  row 431131654155300 14 273976511571100 14 0 0,
  row 579067546444400 15 529071129009400 14 0 0,
  row 270394551067500 14 140447321720000 14 0 0,
  row 297542297606500 14 603838169521000 14 0 0,
  row 132416873311400 14 129017065366600 14 0 0,
  row 286010363283600 14 326189593967700 14 0 0,
  row 483225976340300 14 115452231209500 14 0 0,
  row 272616582504200 14 620611154506200 14 0 0,
  row 696660245540800 15 540911879668500 14 0 0,
  row 566963410460600 14 120298578486400 14 0 0,
  row 151338653891500 14 409871525706400 14 0 0,
  row 198350916822700 14 413203321846000 15 0 0,
  row 278289299280700 14 121141599182700 14 0 0,
  row 533723288683600 14 376547907240900 14 0 0,
  row 583713379216000 14 426554003722600 14 0 0,
  row 308056020050700 14 523756601067600 14 0 0,
  row 166174789747100 14 150717307951300 14 0 0,
  row 211250802706800 14 902395744984800 16 0 0,
  row 571652846262700 14 541493055213900 15 0 0,
  row 642417272649200 15 414573530365900 14 0 0,
  row 491924469771500 14 334440882905500 14 0 0,
  row 255082105273400 14 334853465760700 14 0 0,
  row 393933149171000 14 419882359722000 15 0 0,
  row 227533757121800 14 560914474718000 14 0 0,
  row 199932420079000 14 702841105922400 15 0 0,
  row 912100137820000 15 562469798308600 14 0 0,
  row 342842866086900 14 185784207670700 14 0 0,
  row 613292772003500 14 456288727993100 14 0 0,
  row 769365019300300 15 235805869265200 15 0 0,
  row 362129385490800 14 204973152684500 14 0 0,
  row 484186365973300 14 243235629693300 15 0 0,
  row 181417499426800 14 563110127938700 14 0 0,
  row 138699040609100 14 111761573739200 14 0 0,
  row 917831858717700 15 589982651695500 14 0 0,
  row 268892381183500 14 213056296407000 14 0 0,
  row 118825912758400 14 346238704822500 15 0 0,
  row 370216063427300 14 853435278154300 15 0 0,
  row 719916396033100 15 287506142904100 14 0 0,
  row 191670936499900 14 224251284665900 14 0 0,
  row 242404319554700 14 135401690395800 14 0 0,
  row 444589497749700 14 670511436563100 16 0 0,
  row 381436698411700 14 477570574848200 14 0 0,
  row 292420059608400 14 263892421613900 14 0 0,
  row 184225164832700 14 482635892737300 14 0 0,
  row 415584192198400 14 320038848311800 14 0 0,
  row 115804597887400 15 538484840956300 14 0 0,
  row 477185040869100 14 517337348774400 14 0 0,
  row 460884255888900 15 625096614985300 14 0 0,
  row 153878112702800 14 490600135249900 14 0 0,
  row 322664782287800 15 503433301000500 14 0 0,
  row 196799173121900 15 610826242313700 14 0 0,
  row 370703666987300 14 213539929495500 14 0 0,
  row 118208662804200 14 589372193396100 14 0 0,
  row 490625682062900 14 333194076206300 14 0 0,
  row 341494986685700 14 184341846103500 14 0 0,
  row 459912227537800 14 302954854723000 14 0 0,
  row 283075114544500 15 499471797036400 14 0 0,
  row 421204643253800 14 264510259137500 14 0 0,
  row 988197840863000 15 570054739789700 14 0 0,
  row 556534733158800 15 526889890587200 14 0 0,
  row 565570815076600 15 527628057507800 14 0 0,
  row 141840505340800 14 613016862347500 14 0 0,
  row 406955754567500 14 663169245799500 15 0 0,
  row 107413431363400 14 249943548770200 14 0 0,
  row 0 0 579684602312600 14 0 0]

/-- `S0[2]`. -/
def S0_2 : List Row := [
  row 529690972111800 15 529690972111800 15 213299079778300 15,
  row 213299079778300 15 213299079778300 15 529690972111800 15,
  row 381329181312000 16 381329181312000 16 381329181312000 16,
  row 747816656905000 16 747816656905000 16 747816656905000 16,
  row 0 0 0 0 0 0,
  row 105938194422400 14 105938194422400 14 426598159556600 15,
  row 426598159556600 15 426598159556600 15 105938194422400 14,
  row 206185625110400 15 206185625110400 15 206185625110400 15,
  row 220412534446200 15 220412534446200 15 220412534446200 15,
  row 149563331381000 15 149563331381000 15 522577517443900 15,
  row 522577517443900 15 522577517443900 15 536804426779700 15,
  row 536804426779700 15 536804426779700 15 366487475593000 16,
  row 762658362624000 16 762658362624000 16 149563331381000 15,
  row 366487475593000 16 366487475593000 16 396170887031000 16,
  row 396170887031000 16 396170887031000 16 762658362624000 16,
  row 732974951186000 16 732974951186000 16 711345466790000 17,
  row 158907291633500 14 158907291633500 14 110206267223100 15,
  row 711345466790000 17 711345466790000 17 639897239334900 15,
  row 419484704888700 15 419484704888700 15 316391892333500 15,
  row 639897239334900 15 639897239334900 15 419484704888700 15,
  row 110206267223100 15 110206267223100 15 158907291633500 14,
  row 628307585044600 14 628307585044600 14 102132855473900 13,
  row 103092812555200 15 103092812555200 15 253505050000000 16,
  row 316391892333500 15 316391892333500 15 732974951186000 16,
  row 102132855473900 13 102132855473900 13 103092812555200 15,
  row 148417057190000 17 148417057190000 17 433711614224500 15,
  row 632783784667000 15 632783784667000 15 148417057190000 17,
  row 433711614224500 15 433711614224500 15 632783784667000 15,
  row 105226848955600 14 105226848955600 14 116247475677900 14,
  row 116247475677900 14 116247475677900 14 105226848955600 14,
  row 106649539889200 14 106649539889200 14 846082864445300 15,
  row 949175677000500 15 949175677000500 15 334061243471700 14,
  row 846082864445300 15 846082864445300 15 106649539889200 14,
  row 148079160809100 15 148079160809100 15 202253162485100 15,
  row 224344997071500 15 224344997071500 15 351645769874000 16,
  row 334061243471700 14 334061243471700 14 949175677000500 15,
  row 351645769874000 16 351645769874000 16 296834114380000 17,
  row 637357483973000 16 110459172932000 16 227525989114100 15,
  row 110459172932000 16 411012592750000 16 507010100000000 16,
  row 151047501952900 15 151047501952900 15 209366617153000 15,
  row 411012592750000 16 637357483973000 16 411012592750000 16,
  row 227525989114100 15 227525989114100 15 260879031406000 13,
  row 253505050000000 16 253505050000000 16 148079160809100 15,
  row 858275829837000 16 718133245467000 16 217231542403600 15,
  row 211876388844700 14 858275829837000 16 637357483973000 16,
  row 718133245467000 16 211876388844700 14 323505347001400 15,
  row 296834114380000 17 296834114380000 17 853196319113200 15,
  row 777500068343000 16 777500068343000 16 718133245467000 16,
  row 209366617153000 15 209366617153000 15 742990051890100 15,
  row 217231542403600 15 217231542403600 15 777500068343000 16,
  row 202253162485100 15 742990051890100 15 199072170442500 15,
  row 735876597222200 15 202253162485100 15 211876388844700 14,
  row 742990051890100 15 323505347001400 15 110459172932000 16,
  row 323505347001400 15 138517414087800 15 224344997071500 15,
  row 138517414087800 15 735876597222200 15 515464062776000 15,
  row 515464062776000 15 515464062776000 15 151047501952900 15,
  row 853196319113200 15 853196319113200 15 142269093358000 16,
  row 199072170442500 15 199072170442500 15 117319721891000 15,
  row 543917881447600 15 543917881447600 15 216480071820900 15,
  row 525758509486500 15 525758509486500 15 647010694002800 15,
  row 533623434737100 15 533623434737100 15 210118087735700 15,
  row 147886664911200 14 147886664911200 14 309278437665600 15,
  row 216480071820900 15 216480071820900 15 415552242263400 15,
  row 169216572889100 14 210118087735700 15 858275829837000 16,
  row 210118087735700 15 169216572889100 14 525758509486500 15,
  row 415552242263400 15 415552242263400 15 138517414087800 15,
  row 117319721891000 15 117319721891000 15 543917881447600 15,
  row 126556756933400 14 126556756933400 14 533623434737100 15,
  row 956289131668400 15 956289131668400 15 521758062812000 13,
  row 142269093358000 16 142269093358000 16 0 0,
  row 647010694002800 15 647010694002800 15 0 0,
  row 158195946166700 14 158195946166700 14 0 0,
  row 959793578873000 16 959793578873000 16 0 0,
  row 708492030652000 16 708492030652000 16 0 0,
  row 526509980069200 15 526509980069200 15 0 0,
  row 532871964154400 15 532871964154400 15 0 0,
  row 787141283158000 16 787141283158000 16 0 0,
  row 260879031406000 13 260879031406000 13 0 0,
  row 111430413249800 15 111430413249800 15 0 0,
  row 137577383655700 14 137577383655700 14 0 0,
  row 114398754393600 15 277034828175600 15 0 0,
  row 159618637100300 14 114398754393600 15 0 0,
  row 277034828175600 15 159618637100300 14 0 0,
  row 222860826499600 15 222860826499600 15 0 0,
  row 146594990237200 15 146594990237200 15 0 0,
  row 507010100000000 16 507010100000000 16 0 0,
  row 490333907953900 15 309278437665600 15 0 0,
  row 299126662762000 15 490333907953900 15 0 0,
  row 351816493866100 15 299126662762000 15 0 0,
  row 625670329999100 15 351816493866100 15 0 0,
  row 109946242677900 15 109946242677900 15 0 0,
  row 125661517008900 13 625670329999100 15 0 0,
  row 668122486943500 14 125661517008900 13 0 0,
  row 336804064155000 16 668122486943500 14 0 0,
  row 116958821144700 14 393246262530000 17 0 0,
  row 104515503488800 14 116958821144700 14 0 0,
  row 115536130211100 14 104515503488800 14 0 0,
  row 445251171570000 17 115536130211100 14 0 0,
  row 440825068892400 15 336804064155000 16 0 0,
  row 652199189692000 16 440825068892400 15 0 0,
  row 942062222332600 15 445251171570000 17 0 0,
  row 210850787724900 15 942062222332600 15 0 0,
  row 215747371831700 15 412371250220800 15 0 0,
  row 412371250220800 15 210850787724900 15 0 0,
  row 425854298469000 16 215747371831700 15 0 0,
  row 225829167643400 15 652199189692000 16 0 0,
  row 422665696931300 15 425854298469000 16 0 0,
  row 309278437665600 15 225829167643400 15 0 0,
  row 792341774062000 16 422665696931300 15 0 0,
  row 145630868755700 15 792341774062000 16 0 0,
  row 179525854144600 14 145630868755700 15 0 0,
  row 152531672524800 15 152531672524800 15 0 0,
  row 843434124118000 16 179525854144600 14 0 0,
  row 127268102400200 14 703291539748000 16 0 0,
  row 703291539748000 16 843434124118000 16 0 0,
  row 212334958296800 15 127268102400200 14 0 0,
  row 214263201259800 15 212334958296800 15 0 0,
  row 184727908368400 15 214263201259800 15 0 0,
  row 137033243515900 15 184727908368400 15 0 0,
  row 264845486055900 14 264845486055900 14 0 0,
  row 437644076849800 15 137033243515900 15 0 0,
  row 288080745468800 15 437644076849800 15 0 0,
  row 203737333057000 15 288080745468800 15 0 0,
  row 112914583821700 15 203737333057000 15 0 0,
  row 527242680058400 15 112914583821700 15 0 0,
  row 532139264165200 15 527242680058400 15 0 0,
  row 628851322041700 15 532139264165200 15 0 0,
  row 160609248674200 15 628851322041700 15 0 0,
  row 838969409777400 15 160609248674200 15 0 0,
  row 200855762122400 14 136866038188900 14 0 0,
  row 204265710947700 13 200855762122400 14 0 0,
  row 211165043377900 14 956174672130000 17 0 0,
  row 430530622181900 15 380127640730800 15 0 0,
  row 956174672130000 17 204265710947700 13 0 0,
  row 380127640730800 15 211165043377900 14 0 0,
  row 106331440684900 14 430530622181900 15 0 0,
  row 136866038188900 14 106331440684900 14 0 0,
  row 423417167514000 15 838969409777400 15 0 0,
  row 125300878651000 16 423417167514000 15 0 0,
  row 528726850630300 15 528726850630300 15 0 0,
  row 530655093593300 15 530655093593300 15 0 0,
  row 521758062812000 13 125300878651000 16 0 0,
  row 222185670100200 14 521758062812000 13 0 0,
  row 746675969365000 16 222185670100200 14 0 0,
  row 748957344445000 16 746675969365000 16 0 0,
  row 127471496794600 15 748957344445000 16 0 0,
  row 105544948159800 14 105544948159800 14 0 0,
  row 221376655927700 15 221376655927700 15 0 0,
  row 213251706131900 15 213251706131900 15 0 0,
  row 213346453424700 15 213346453424700 15 0 0,
  row 728763142554300 15 716006736479000 16 0 0,
  row 716006736479000 16 220918345864000 16 0 0,
  row 220918345864000 16 330618801669300 15 0 0,
  row 330618801669300 15 779626577331000 16 0 0,
  row 779626577331000 16 388465241425400 15 0 0,
  row 388465241425400 15 760515150000000 16 0 0,
  row 107360885355900 14 107360885355900 14 0 0,
  row 873117535556000 16 728763142554300 15 0 0,
  row 760515150000000 16 873117535556000 16 0 0,
  row 984600278533100 15 984600278533100 15 0 0,
  row 429779151599200 15 429779151599200 15 0 0,
  row 212779030687900 15 212779030687900 15 0 0,
  row 213819128868700 15 213819128868700 15 0 0,
  row 723333736371000 16 340770576572900 15 0 0,
  row 860309773781100 15 723333736371000 16 0 0,
  row 738175442090000 16 860309773781100 15 0 0,
  row 757457871720000 16 738175442090000 16 0 0,
  row 340770576572900 15 757457871720000 16 0 0,
  row 772299577439000 16 318099204260000 17 0 0,
  row 622515778254000 16 772299577439000 16 0 0,
  row 526898311041000 16 145110819665300 15 0 0,
  row 350332323294200 15 127471496794600 15 0 0,
  row 145110819665300 15 350332323294200 15 0 0,
  row 529643598465400 15 529643598465400 15 0 0,
  row 529738345758200 15 529738345758200 15 0 0,
  row 909818612842600 15 909818612842600 15 0 0,
  row 393246262530000 17 108462072106000 15 0 0,
  row 234639443782000 15 234639443782000 15 0 0,
  row 318099204260000 17 186212078940300 15 0 0,
  row 186212078940300 15 190546480866900 14 0 0,
  row 454909306421300 15 362862411159300 15 0 0,
  row 190546480866900 14 213185011024300 15 0 0,
  row 362862411159300 15 213413148532300 15 0 0,
  row 213185011024300 15 529170923021400 15 0 0,
  row 213413148532300 15 530211021202200 15 0 0,
  row 200768991913200 15 297642492190100 15 0 0,
  row 529170923021400 15 148598010378000 14 0 0,
  row 530211021202200 15 604472637802300 15 0 0,
  row 297642492190100 15 622515778254000 16 0 0,
  row 148598010378000 14 526898311041000 16 0 0,
  row 604472637802300 15 125845411466600 14 0 0,
  row 108462072106000 15 210378112280900 15 0 0,
  row 125845411466600 14 216220047275700 15 0 0,
  row 210378112280900 15 200768991913200 15 0 0,
  row 216220047275700 15 106256293626600 14 0 0,
  row 106256293626600 14 565115573644400 15 0 0,
  row 565115573644400 15 140001584659700 15 0 0,
  row 703632987732200 15 703632987732200 15 0 0,
  row 140001584659700 15 454909306421300 15 0 0,
  row 212547609195600 15 212547609195600 15 0 0,
  row 214050550361000 15 214050550361000 15 0 0,
  row 153495794006300 15 153495794006300 15 0 0,
  row 223593526488800 15 223593526488800 15 0 0,
  row 209106592607800 15 209106592607800 15 0 0,
  row 217491566948800 15 217491566948800 15 0 0,
  row 173942015620400 15 173942015620400 15 0 0,
  row 753017147809000 16 753017147809000 16 0 0,
  row 742616166001000 16 742616166001000 16 0 0,
  row 252656143936200 15 252656143936200 15 0 0,
  row 563631403072500 15 563631403072500 15 0 0,
  row 105620095218100 14 888659032194000 16 0 0,
  row 782637094218000 13 105620095218100 14 0 0,
  row 0 0 782637094218000 13 0 0]

/-- epv00_data.rs:1784-2430. -/
def S0 : Table := [S0_0, S0_1, S0_2]

end Verif.Epv
