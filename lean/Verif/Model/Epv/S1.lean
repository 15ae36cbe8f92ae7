import Verif.Model.Epv.Table

/-!
# `S1` of `crates/tofas/src/epv00_data.rs` (lines 2431-2588)

`row a i b j c k` is the row `[a*10^-i, b*10^-j, c*10^-k]`; digits as in the source.
-/

namespace Verif.Epv

/-- `S1[0]`. -/
def S1_0 : List Row := [
  row (-129631036152000) 22 898904757357600 23 544422047567800 23,
  row 897576900943800 23 781593840104800 23 388341269559600 23,
  row 777111344130700 23 755092671328000 23 133434143455100 23,
  row 753830386664200 23 605655692589500 23 373000126688300 24,
  row 606138457933600 23 573414269820400 23 289492919795600 24,
  row 572699423559400 23 561434182245900 23 285795035770100 24,
  row 561649283642400 23 102867814765600 23 249922643229200 24,
  row 101088158476900 23 727079207526600 24 193770544359300 24,
  row 725960615762600 24 873414172604000 24 137489439632000 24,
  row 875509502693500 24 537737140211300 24 121724867840800 24,
  row 537049118281200 24 472971943157100 24 796105274087000 25,
  row 574377388766500 24 445805282097300 24 497922594968900 25,
  row 440810314030000 24 440685546790800 24 438855228659700 25,
  row 310189237444500 24 310165931097700 24 258683521256000 25,
  row 320945371357800 24 301674923254500 24 0 0,
  row 301722828606400 24 319854135265600 24 0 0,
  row 320070003860100 24 214206538987100 24 0 0,
  row 213763727991100 24 190261524759200 24 0 0,
  row 189968638672700 24 161341099087100 24 0 0,
  row 140199454530800 24 157699216509700 24 0 0,
  row 157805781049900 24 124163725989400 24 0 0,
  row 123771325335100 24 131397483035500 24 0 0,
  row 131307683739500 24 118169711825800 24 0 0,
  row 118496330486000 24 123823974277900 24 0 0,
  row 123813087856500 24 101010706824100 24 0 0,
  row 101595952773600 24 922631661650900 25 0 0,
  row 901795442371400 25 866494641955500 25 0 0,
  row 866802495560300 25 775723046897800 25 0 0,
  row 775608393010300 25 769316862813900 25 0 0,
  row 753650340174100 25 548789745461200 25 0 0,
  row 548330867933200 25 519611867721800 25 0 0,
  row 518433962042800 25 511085333993500 25 0 0,
  row 510865871203000 25 502780453481300 25 0 0,
  row 501942452465000 25 492248592267400 25 0 0,
  row 490931262597800 25 615559952440000 25 0 0,
  row 445663890110700 25 444714783216100 25 0 0,
  row 422703035092500 25 414469127642200 25 0 0,
  row 409545604009300 25 409995062545200 25 0 0,
  row 499053704142200 25 506054168295300 25 0 0,
  row 432117001084500 25 429361594630000 25 0 0,
  row 354407209180200 25 354565984576300 25 0 0,
  row 348019863868700 25 347911204119600 25 0 0,
  row 344028724443500 25 343851649357000 25 0 0,
  row 333062832271300 25 329734128503300 25 0 0,
  row 297306070718400 25 297258581801500 25 0 0,
  row 293260676608900 25 293170729501700 25 0 0,
  row 287697231095300 25 289719814940300 25 0 0,
  row 282748827855600 25 283229324087800 25 0 0,
  row 251502823975600 25 286434832661200 25 0 0,
  row 285303374441500 25 285271467547100 25 0 0]

/-- `S1[1]`. -/
def S1_1 : List Row := [
  row 0 0 584059367212200 14 180382550931000 14,
  row 112889160925000 14 112966470713300 14 466861638939200 14,
  row 270603987707700 14 619658910484500 15 0 0,
  row 219128128949800 14 167749466784600 14 540140591894300 14,
  row 324816731995800 14 400092085296200 14 493241560985200 14,
  row 556998139861000 14 348672257732800 14 315462536213100 14,
  row 505738661490900 14 187714102478700 14 365748612898800 14,
  row 347357711609500 14 507716730173900 14 574043467900200 14,
  row 365185859366500 15 906955028260900 16 171285736689100 14,
  row 166283540833800 14 603938184467100 14 231209087093200 14,
  row 132767387807700 14 215308631176000 14 528336855416300 14,
  row 425020084668700 14 505983002556500 14 429829047186000 14,
  row 359875257427700 14 202797169263000 14 614551504740600 14,
  row 488782298331900 14 331767798186000 14 301944800180900 14,
  row 970227229511400 15 391370348253200 14 0 0,
  row 548446227594900 14 127551309852500 14 0 0,
  row 284661333864300 14 530135161459700 14 0 0,
  row 569216329272900 15 489494335273600 15 0 0,
  row 206107715718900 14 244989113043700 14 0 0,
  row 417777113696700 14 421142144763300 14 0 0,
  row 578246059733500 14 414080336813300 14 0 0,
  row 570590086688100 14 359192030550300 14 0 0,
  row 516343817957600 14 150631438278800 14 0 0,
  row 305480442724200 14 746140537840400 15 0 0,
  row 231729257596200 14 627101079547500 15 0 0,
  row 219464364552600 14 125915883958300 14 0 0,
  row 286860354543500 14 335324469693400 14 0 0,
  row 492384967508200 14 144767729519600 14 0 0,
  row 301433413520000 14 112050989672100 14 0 0,
  row 270488627976900 14 443938042679500 14 0 0,
  row 601098367379900 14 378885661913700 15 0 0,
  row 195270457329100 14 138687937201600 14 0 0,
  row 295857578664900 14 164788180546600 15 0 0,
  row 173631762131800 14 159431507986200 14 0 0,
  row 316721641625700 14 0 0 0 0,
  row 769757992347100 15 548072091897600 14 0 0,
  row 349091013792800 14 193137103366000 14 0 0,
  row 517888898449100 15 522961129433500 14 0 0,
  row 332388766897400 14 173111248629800 14 0 0,
  row 428848498711800 14 271457103892500 14 0 0,
  row 602105157925100 14 445104144463400 14 0 0,
  row 460002705471400 14 302938544808100 14 0 0,
  row 434952597074200 14 277850714373100 14 0 0,
  row 234739150508200 14 789870980758400 15 0 0,
  row 478940928640000 14 321878531697300 14 0 0,
  row 583169379992700 14 426073101209800 14 0 0,
  row 269263851477100 14 112075397810100 14 0 0,
  row 205605248796000 14 459768271782700 15 0 0,
  row 741186326244900 15 216993992844800 14 0 0,
  row 394848102489400 14 237765987057800 14 0 0]

/-- `S1[2]`. -/
def S1_2 : List Row := [
  row 0 0 426598159556600 15 213299079778300 15,
  row 426598159556600 15 206185625110400 15 529690972111800 15,
  row 206185625110400 15 220412534446200 15 0 0,
  row 220412534446200 15 105938194422400 14 206185625110400 15,
  row 105938194422400 14 522577517443900 15 220412534446200 15,
  row 522577517443900 15 536804426779700 15 747816656905000 16,
  row 536804426779700 15 711345466790000 17 426598159556600 15,
  row 711345466790000 17 639897239334900 15 105938194422400 14,
  row 639897239334900 15 419484704888700 15 536804426779700 15,
  row 419484704888700 15 433711614224500 15 522577517443900 15,
  row 433711614224500 15 213299079778300 15 381329181312000 16,
  row 213299079778300 15 529690972111800 15 419484704888700 15,
  row 158907291633500 14 158907291633500 14 711345466790000 17,
  row 105226848955600 14 105226848955600 14 639897239334900 15,
  row 529690972111800 15 106649539889200 14 0 0,
  row 106649539889200 14 149563331381000 15 0 0,
  row 149563331381000 15 316391892333500 15 0 0,
  row 316391892333500 15 227525989114100 15 0 0,
  row 227525989114100 15 110206267223100 15 0 0,
  row 110206267223100 15 762658362624000 16 0 0,
  row 762658362624000 16 515464062776000 15 0 0,
  row 515464062776000 15 366487475593000 16 0 0,
  row 366487475593000 16 632783784667000 15 0 0,
  row 632783784667000 15 396170887031000 16 0 0,
  row 396170887031000 16 732974951186000 16 0 0,
  row 732974951186000 16 199072170442500 15 0 0,
  row 199072170442500 15 543917881447600 15 0 0,
  row 543917881447600 15 949175677000500 15 0 0,
  row 949175677000500 15 103092812555200 15 0 0,
  row 103092812555200 15 853196319113200 15 0 0,
  row 853196319113200 15 209366617153000 15 0 0,
  row 209366617153000 15 217231542403600 15 0 0,
  row 217231542403600 15 216480071820900 15 0 0,
  row 216480071820900 15 210118087735700 15 0 0,
  row 210118087735700 15 0 0 0 0,
  row 323505347001400 15 323505347001400 15 0 0,
  row 637357483973000 16 637357483973000 16 0 0,
  row 647010694002800 15 647010694002800 15 0 0,
  row 142269093358000 16 142269093358000 16 0 0,
  row 735876597222200 15 735876597222200 15 0 0,
  row 526509980069200 15 526509980069200 15 0 0,
  row 532871964154400 15 532871964154400 15 0 0,
  row 858275829837000 16 858275829837000 16 0 0,
  row 110459172932000 16 110459172932000 16 0 0,
  row 525758509486500 15 525758509486500 15 0 0,
  row 533623434737100 15 533623434737100 15 0 0,
  row 117319721891000 15 117319721891000 15 0 0,
  row 202253162485100 15 202253162485100 15 0 0,
  row 959793578873000 16 959793578873000 16 0 0,
  row 211876388844700 14 211876388844700 14 0 0]

/-- epv00_data.rs:2431-2588. -/
def S1 : Table := [S1_0, S1_1, S1_2]

end Verif.Epv
