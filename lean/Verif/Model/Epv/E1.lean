import Verif.Model.Epv.Table

/-!
# `E1` of `crates/tofas/src/epv00_data.rs` (lines 1513-1760)

`row a i b j c k` is the row `[a*10^-i, b*10^-j, c*10^-k]`; digits as in the source.
-/

namespace Verif.Epv

/-- `E1[0]`. -/
def E1_0 : List Row := [
  row 123404632600400 20 930469054652800 21 227829044996600 20,
  row 515006882470100 21 515071557066300 21 542945820983000 22,
  row 129074392324500 22 129082541105600 22 190324049252500 22,
  row 106861556495200 22 464546666538600 23 238540927674300 24,
  row 207961914253800 23 207962531071800 23 867692834257300 25,
  row 207800924396900 23 207818985090700 23 776544259354400 25,
  row 620633005885600 24 620719013802700 24 706615833271500 25,
  row 598933531374600 24 598982653256900 24 709217528865700 25,
  row 595849566384000 24 596136081261800 24 535758221353500 25,
  row 486692326153900 24 487416547101600 24 382803586502100 25,
  row 426778582314200 24 428383403436000 24 382485722042700 25,
  row 461067514164800 24 465238928752900 24 328699518162800 25,
  row 362698999397300 24 375170747640100 24 0 0,
  row 356307119438900 24 355999880619800 24 0 0,
  row 355701564280700 24 355844755885700 24 0 0,
  row 321041208912200 24 321111692710600 24 0 0,
  row 287547357798600 24 287560991467200 24 0 0,
  row 284291368162900 24 284310970406900 24 0 0,
  row 275124821591600 24 274467646842700 24 0 0,
  row 248143288112700 24 248128523778900 24 0 0,
  row 205988597656000 24 206033848103300 24 0 0,
  row 201552234259100 24 201582235833100 24 0 0,
  row 199536408425300 24 200119594419500 24 0 0,
  row 195743643694300 24 195366764237700 24 0 0,
  row 165160981894800 24 183974407871300 24 0 0,
  row 182298055069900 24 164333429484500 24 0 0,
  row 167522315976000 24 176805101865200 24 0 0,
  row 170649176474500 24 167487420548900 24 0 0,
  row 139295236261500 24 142144539760900 24 0 0,
  row 120986826634200 24 125516395826700 24 0 0,
  row 100982720261100 24 101394528196100 24 0 0,
  row 104726138860200 24 104729433585200 24 0 0,
  row 104700665200400 24 104710387939200 24 0 0,
  row 960999314309500 25 953034396282600 25 0 0,
  row 959090059387300 25 960463761169000 25 0 0,
  row 914624918807100 25 915351853717700 25 0 0,
  row 854527448029000 25 856245821492200 25 0 0,
  row 822437788119400 25 823252536065400 25 0 0,
  row 618352951041000 25 615022341143800 25 0 0,
  row 625925514714100 25 627208785800000 25 0 0,
  row 553929169415100 25 554047631104000 25 0 0,
  row 732825946631400 25 733190169936100 25 0 0,
  row 601783584356000 25 601852870279100 25 0 0,
  row 707982777524300 25 515053072480400 25 0 0,
  row 517035887821300 25 647193374181100 25 0 0,
  row 487230183868200 25 531746064417400 25 0 0,
  row 524986941105800 25 483218774878300 25 0 0,
  row 471617235441100 25 471676355511000 25 0 0,
  row 487121494096400 25 487150913986100 25 0 0,
  row 459807685075100 25 459841769676800 25 0 0,
  row 456219608948500 25 567418953317500 25 0 0,
  row 432549387222400 25 407356032819500 25 0 0,
  row 567378117674800 25 504099494535900 25 0 0,
  row 396143664250300 25 507818513467900 25 0 0,
  row 510186820905800 25 376934353706100 25 0 0,
  row 525704316767600 25 498033136529900 25 0 0,
  row 507661398939300 25 345823659475700 25 0 0,
  row 334216935277800 25 357885949360200 25 0 0,
  row 354588198359100 25 337050464641900 25 0 0,
  row 336406373859900 25 329987333842800 25 0 0,
  row 335703967077600 25 430491731840900 25 0 0,
  row 430741226868700 25 340241875345500 25 0 0,
  row 340576911543500 25 277846057214600 25 0 0,
  row 300192619848000 25 278271012890200 25 0 0,
  row 277826478732500 25 271172517964600 25 0 0,
  row 267615948066600 25 298176094634000 25 0 0,
  row 295427339993900 25 281167297777200 25 0 0,
  row 330936288879500 25 286345447446700 25 0 0,
  row 281028360843800 25 333346463405100 25 0 0,
  row 337804563776400 25 331299174760900 25 0 0,
  row 255813497984000 25 281325556400600 25 0 0,
  row 227375557844700 25 266509808396600 25 0 0,
  row 229417603769000 25 234979570521600 25 0 0,
  row 253350609943500 25 233035229396100 25 0 0,
  row 271668537581200 25 272800168341900 25 0 0,
  row 241904343519800 25 248406100766900 25 0 0,
  row 252123254481200 25 264632876842700 25 0 0,
  row 263019502149100 25 251863026483100 25 0 0,
  row 254839584094400 25 242190145538400 25 0 0,
  row 0 0 634853326783100 26 0 0]

/-- `E1[1]`. -/
def E1_1 : List Row := [
  row 0 0 0 0 341371603386300 14,
  row 600266455750100 14 443180711629400 14 0 0,
  row 595943766419900 14 438861003967800 14 337059235829700 14,
  row 201552965420900 14 582726337603400 14 332791471841600 14,
  row 173296053143200 14 162169866228200 15 182400681126400 14,
  row 491560447699600 14 334471343514000 14 388856427924700 14,
  row 361645795382400 15 507404931957600 14 519426723194400 14,
  row 380260730447400 14 223184221662000 14 233324696002100 14,
  row 284586656003100 14 127497576904500 14 222403117661900 14,
  row 521320377182400 14 364227742677900 14 215671093358400 14,
  row 436818972781800 15 514876551010600 14 152975521991500 14,
  row 183724918137200 16 471579479217500 14 487951290048300 14,
  row 216159054532600 14 661720737032500 15 0 0,
  row 145263195474600 14 615554887540400 14 0 0,
  row 447059339305400 14 289882729766400 14 0 0,
  row 519592607831400 14 362581350250900 14 0 0,
  row 591625661019300 14 434543581313400 14 0 0,
  row 114990242604700 14 586226394003800 14 0 0,
  row 550208857466200 14 392641947508900 14 0 0,
  row 292198984663700 14 135197657282800 14 0 0,
  row 371807037658500 14 214755699859100 14 0 0,
  row 597939525974000 14 440835897221600 14 0 0,
  row 677208798549400 15 538582982253100 14 0 0,
  row 289921065466500 14 130493374612000 14 0 0,
  row 622820648219200 14 617356722883500 14 0 0,
  row 146934874617900 14 463594299752300 14 0 0,
  row 381391055568800 14 508628355887400 14 0 0,
  row 300438050668400 15 224333213724100 14 0 0,
  row 144039397340600 14 618689977151500 14 0 0,
  row 415042579172700 14 573023846565800 14 0 0,
  row 329004042984300 14 172605522840200 14 0 0,
  row 422959009022700 14 265880122812900 14 0 0,
  row 241896768057500 14 848104783503500 15 0 0,
  row 462794365920100 14 307926714985900 14 0 0,
  row 189439393992400 14 325867979291800 15 0 0,
  row 201064751956200 14 439859988658400 15 0 0,
  row 552984695622600 16 477268679414500 14 0 0,
  row 125430410217400 14 596622072167900 14 0 0,
  row 336086216881500 14 178098559192300 14 0 0,
  row 475562824317900 14 318430542901200 14 0 0,
  row 537174695514200 14 380126059543300 14 0 0,
  row 492769961390600 15 520594859186500 14 0 0,
  row 577668200173400 16 477013908362300 14 0 0,
  row 439505943225100 14 357479689958500 14 0 0,
  row 515406261995400 14 267978726652100 14 0 0,
  row 628961164897300 15 952876334549400 15 0 0,
  row 561727204694900 14 532932249823200 14 0 0,
  row 396590180087700 14 239523531646600 14 0 0,
  row 462750705009300 14 305666364882300 14 0 0,
  row 602363122645900 14 445276260901900 14 0 0,
  row 413856208406800 14 987968087219300 15 0 0,
  row 133084590656400 14 593912769698600 14 0 0,
  row 255875261565700 14 454987582451000 14 0 0,
  row 272807173463000 14 734665989398200 15 0 0,
  row 411344496514400 14 107131718836700 14 0 0,
  row 619508983059000 14 250034534178400 14 0 0,
  row 230512413291800 14 382515945071100 14 0 0,
  row 541599815507100 14 529966479154900 14 0 0,
  row 372716056457400 14 500231630159300 14 0 0,
  row 290112104920400 15 252612327528200 14 0 0,
  row 165222935433100 14 336807855713200 14 0 0,
  row 493890958744500 14 838549542580000 15 0 0,
  row 240889076651100 14 366990520324000 14 0 0,
  row 486223900638600 14 269166481217000 15 0 0,
  row 524116866135300 14 470748721771800 14 0 0,
  row 342359394219900 14 319026086781600 15 0 0,
  row 188172126540600 14 319653231537200 14 0 0,
  row 193152567734900 14 226324032478000 15 0 0,
  row 241465949505000 14 349845168506500 14 0 0,
  row 423801916343000 14 583915447741200 14 0 0,
  row 182822523580500 14 826804434662100 15 0 0,
  row 585818428399800 14 393402172536000 14 0 0,
  row 451458977905700 14 519762091377900 14 0 0,
  row 235571785155100 14 298499923180700 14 0 0,
  row 222100362510000 14 652167963854400 15 0 0,
  row 595570495163500 14 346895556109700 14 0 0,
  row 139567684852100 14 101372453351600 14 0 0,
  row 572746891874300 14 610808105712200 14 0 0,
  row 262835185940000 18 165109777626000 14 0 0,
  row 0 0 322022656032100 14 0 0]

/-- `E1[2]`. -/
def E1_2 : List Row := [
  row 0 0 0 0 628307585044600 14,
  row 125661517008900 13 125661517008900 13 0 0,
  row 188492275513400 13 188492275513400 13 125661517008900 13,
  row 628307585044600 14 628307585044600 14 188492275513400 13,
  row 627955269082400 14 627955269082400 14 522369390622200 14,
  row 628659901006800 14 628659901006800 14 550755324037400 14,
  row 470573230701200 14 470573230701200 14 235286615350600 14,
  row 625677752715600 14 625677752715600 14 839968473185700 13,
  row 630937417373600 14 630937417373600 14 529690972111800 15,
  row 775522610072000 15 775522610072000 15 627955269082400 14,
  row 105938194422400 14 105938194422400 14 628659901006800 14,
  row 786041939388000 14 786041939388000 14 102132855473900 13,
  row 575338487833400 14 575338487833400 14 0 0,
  row 588492683145600 14 588492683145600 14 0 0,
  row 681276682255800 14 681276682255800 14 0 0,
  row 668122486943500 14 668122486943500 14 0 0,
  row 251323034017800 13 251323034017800 13 0 0,
  row 612765556764300 14 612765556764300 14 0 0,
  row 643849613324900 14 643849613324900 14 0 0,
  row 548677781246700 14 548677781246700 14 0 0,
  row 707937388842400 14 707937388842400 14 0 0,
  row 629018930511400 14 629018930511400 14 0 0,
  row 627596239577800 14 627596239577800 14 0 0,
  row 550755324037400 14 550755324037400 14 0 0,
  row 115067697566700 13 117906290908200 13 0 0,
  row 117906290908200 13 115067697566700 13 0 0,
  row 705859846051800 14 711345466790000 17 0 0,
  row 711345466790000 17 705859846051800 14 0 0,
  row 796298037978600 15 796298037978600 15 0 0,
  row 469400293411000 14 469400293411000 14 0 0,
  row 373876145370700 14 373876145370700 14 0 0,
  row 628209533460500 14 628209533460500 14 0 0,
  row 628405636628600 14 628405636628600 14 0 0,
  row 606977677066700 14 606977677066700 14 0 0,
  row 413691047269600 14 413691047269600 14 0 0,
  row 649637493022400 14 649637493022400 14 0 0,
  row 119444705696800 14 119444705696800 14 0 0,
  row 158907291633500 14 158907291633500 14 0 0,
  row 882739024718500 14 882739024718500 14 0 0,
  row 842924122819500 14 842924122819500 14 0 0,
  row 493320851067500 14 493320851067500 14 0 0,
  row 453505949168500 14 453505949168500 14 0 0,
  row 125590382462200 13 125590382462200 13 0 0,
  row 508862879347800 14 117698536629100 13 0 0,
  row 117698536629100 13 508862879347800 14 0 0,
  row 604034711426000 14 315468708686800 14 0 0,
  row 315468708686800 14 604034711426000 14 0 0,
  row 533135752966400 14 533135752966400 14 0 0,
  row 125696748605100 13 125696748605100 13 0 0,
  row 652580458663200 14 652580458663200 14 0 0,
  row 393020969694000 14 572950654865300 14 0 0,
  row 763294319021700 14 763294319021700 14 0 0,
  row 572950654865300 14 803109220920600 14 0 0,
  row 723479417122700 14 747752290741400 14 0 0,
  row 683664515223800 14 723479417122700 14 0 0,
  row 803109220920600 14 683664515223800 14 0 0,
  row 747752290741400 14 109770787845600 13 0 0,
  row 109770787845600 13 416431196199900 14 0 0,
  row 416431196199900 14 113717046439200 13 0 0,
  row 113717046439200 13 393020969694000 14 0 0,
  row 522369390622200 14 159259607595700 14 0 0,
  row 159259607595700 14 312838876357800 14 0 0,
  row 312838876357800 14 734245779466900 14 0 0,
  row 174801635876000 14 174801635876000 14 0 0,
  row 734245779466900 14 529690972111800 15 0 0,
  row 214616537775000 14 536804426779700 15 0 0,
  row 536804426779700 15 708489678380800 14 0 0,
  row 801820933361900 15 522369390622200 14 0 0,
  row 522577517443900 15 801820933361900 15 0 0,
  row 155420282803100 15 155420282803100 15 0 0,
  row 523080736089000 14 522577517443900 15 0 0,
  row 708489678380800 14 521658045155400 14 0 0,
  row 172601546350000 13 214616537775000 14 0 0,
  row 521658045155400 14 172601546350000 13 0 0,
  row 863594200395200 14 863594200395200 14 0 0,
  row 469047977448800 14 523080736089000 14 0 0,
  row 548125491708400 14 262983232899000 16 0 0,
  row 262983232899000 16 548125491708400 14 0 0,
  row 134986733977100 14 134986733977100 14 0 0,
  row 0 0 843346615813100 13 0 0]

/-- epv00_data.rs:1513-1760. -/
def E1 : Table := [E1_0, E1_1, E1_2]

end Verif.Epv
