import Verif.Model.Epv.Table

/-!
# `C2T00B_DATA` of `crates/tofas/src/test_data.rs` (lines 37022-41023)

The numbers of each entry: the TT date, `dtr`, the TDB date, `dt`, the UT1 date; the matrices are left out. `⟨m, e⟩` is `m * 10^-e`; digits as in the source. Written by tools/gen_testdata.py.
-/

namespace Verif.TestData
open Epv

/-- Entries 0 to 99. -/
def C2t_0 : List (Dec × Dec × Dec × Dec × Dec × Dec × Dec × Dec) := [
  (⟨24816173241274189, 10⟩, ⟨25939252341128893, 17⟩, ⟨0, 0⟩, ⟨24816173241274189, 10⟩, ⟨25939252341128893, 17⟩, ⟨0, 0⟩, ⟨24816173241274189, 10⟩, ⟨25939252341128893, 17⟩),
  (⟨24646686026809136, 10⟩, ⟨31047183397663403, 17⟩, ⟨0, 0⟩, ⟨24646686026809136, 10⟩, ⟨31047183397663403, 17⟩, ⟨0, 0⟩, ⟨24646686026809136, 10⟩, ⟨31047183397663403, 17⟩),
  (⟨24599979776225644, 10⟩, ⟨58155606745859956, 18⟩, ⟨0, 0⟩, ⟨24599979776225644, 10⟩, ⟨58155606745859956, 18⟩, ⟨0, 0⟩, ⟨24599979776225644, 10⟩, ⟨58155606745859956, 18⟩),
  (⟨24692733126082974, 10⟩, ⟨61331947616826143, 19⟩, ⟨0, 0⟩, ⟨24692733126082974, 10⟩, ⟨61331947616826143, 19⟩, ⟨0, 0⟩, ⟨24692733126082974, 10⟩, ⟨61331947616826143, 19⟩),
  (⟨24802322334139887, 10⟩, ⟨81370233067302400, 18⟩, ⟨0, 0⟩, ⟨24802322334139887, 10⟩, ⟨81370233067302400, 18⟩, ⟨0, 0⟩, ⟨24802322334139887, 10⟩, ⟨81370233067302400, 18⟩),
  (⟨24543609650883046, 10⟩, ⟨30565347926095865, 17⟩, ⟨0, 0⟩, ⟨24543609650883046, 10⟩, ⟨30565347926095865, 17⟩, ⟨0, 0⟩, ⟨24543609650883046, 10⟩, ⟨30565347926095865, 17⟩),
  (⟨24610113990770746, 10⟩, ⟨19015780686709749, 17⟩, ⟨0, 0⟩, ⟨24610113990770746, 10⟩, ⟨19015780686709749, 17⟩, ⟨0, 0⟩, ⟨24610113990770746, 10⟩, ⟨19015780686709749, 17⟩),
  (⟨24705456683114683, 10⟩, ⟨12665574928957779, 17⟩, ⟨0, 0⟩, ⟨24705456683114683, 10⟩, ⟨12665574928957779, 17⟩, ⟨0, 0⟩, ⟨24705456683114683, 10⟩, ⟨12665574928957779, 17⟩),
  (⟨24614526063898322, 10⟩, ⟨65174110911476413, 17⟩, ⟨0, 0⟩, ⟨24614526063898322, 10⟩, ⟨65174110911476413, 17⟩, ⟨0, 0⟩, ⟨24614526063898322, 10⟩, ⟨65174110911476413, 17⟩),
  (⟨24651480195927587, 10⟩, ⟨64485055491546717, 17⟩, ⟨0, 0⟩, ⟨24651480195927587, 10⟩, ⟨64485055491546717, 17⟩, ⟨0, 0⟩, ⟨24651480195927587, 10⟩, ⟨64485055491546717, 17⟩),
  (⟨24867937255375320, 10⟩, ⟨98921037079012997, 17⟩, ⟨0, 0⟩, ⟨24867937255375320, 10⟩, ⟨98921037079012997, 17⟩, ⟨0, 0⟩, ⟨24867937255375320, 10⟩, ⟨98921037079012997, 17⟩),
  (⟨24522818983763913, 10⟩, ⟨13127337818606810, 17⟩, ⟨0, 0⟩, ⟨24522818983763913, 10⟩, ⟨13127337818606810, 17⟩, ⟨0, 0⟩, ⟨24522818983763913, 10⟩, ⟨13127337818606810, 17⟩),
  (⟨24732170760041340, 10⟩, ⟨77844510224511376, 17⟩, ⟨0, 0⟩, ⟨24732170760041340, 10⟩, ⟨77844510224511376, 17⟩, ⟨0, 0⟩, ⟨24732170760041340, 10⟩, ⟨77844510224511376, 17⟩),
  (⟨24739748291765987, 10⟩, ⟨16324304866757022, 17⟩, ⟨0, 0⟩, ⟨24739748291765987, 10⟩, ⟨16324304866757022, 17⟩, ⟨0, 0⟩, ⟨24739748291765987, 10⟩, ⟨16324304866757022, 17⟩),
  (⟨24698047211164655, 10⟩, ⟨90408920919496261, 17⟩, ⟨0, 0⟩, ⟨24698047211164655, 10⟩, ⟨90408920919496261, 17⟩, ⟨0, 0⟩, ⟨24698047211164655, 10⟩, ⟨90408920919496261, 17⟩),
  (⟨24534084467678731, 10⟩, ⟨42530214994304139, 17⟩, ⟨0, 0⟩, ⟨24534084467678731, 10⟩, ⟨42530214994304139, 17⟩, ⟨0, 0⟩, ⟨24534084467678731, 10⟩, ⟨42530214994304139, 17⟩),
  (⟨24856810028511169, 10⟩, ⟨56785219392191055, 17⟩, ⟨0, 0⟩, ⟨24856810028511169, 10⟩, ⟨56785219392191055, 17⟩, ⟨0, 0⟩, ⟨24856810028511169, 10⟩, ⟨56785219392191055, 17⟩),
  (⟨24587111289661550, 10⟩, ⟨49595366508395211, 17⟩, ⟨0, 0⟩, ⟨24587111289661550, 10⟩, ⟨49595366508395211, 17⟩, ⟨0, 0⟩, ⟨24587111289661550, 10⟩, ⟨49595366508395211, 17⟩),
  (⟨24639793179327170, 10⟩, ⟨97784637418116005, 17⟩, ⟨0, 0⟩, ⟨24639793179327170, 10⟩, ⟨97784637418116005, 17⟩, ⟨0, 0⟩, ⟨24639793179327170, 10⟩, ⟨97784637418116005, 17⟩),
  (⟨24870455602419246, 10⟩, ⟨86729528640264675, 17⟩, ⟨0, 0⟩, ⟨24870455602419246, 10⟩, ⟨86729528640264675, 17⟩, ⟨0, 0⟩, ⟨24870455602419246, 10⟩, ⟨86729528640264675, 17⟩),
  (⟨24873727966504232, 10⟩, ⟨67708101608582694, 17⟩, ⟨0, 0⟩, ⟨24873727966504232, 10⟩, ⟨67708101608582694, 17⟩, ⟨0, 0⟩, ⟨24873727966504232, 10⟩, ⟨67708101608582694, 17⟩),
  (⟨24599792605063003, 10⟩, ⟨29596970341623829, 17⟩, ⟨0, 0⟩, ⟨24599792605063003, 10⟩, ⟨29596970341623829, 17⟩, ⟨0, 0⟩, ⟨24599792605063003, 10⟩, ⟨29596970341623829, 17⟩),
  (⟨24714025555041707, 10⟩, ⟨61657142045638313, 17⟩, ⟨0, 0⟩, ⟨24714025555041707, 10⟩, ⟨61657142045638313, 17⟩, ⟨0, 0⟩, ⟨24714025555041707, 10⟩, ⟨61657142045638313, 17⟩),
  (⟨24613365758966845, 10⟩, ⟨87311491086497162, 18⟩, ⟨0, 0⟩, ⟨24613365758966845, 10⟩, ⟨87311491086497162, 18⟩, ⟨0, 0⟩, ⟨24613365758966845, 10⟩, ⟨87311491086497162, 18⟩),
  (⟨24567077810105486, 10⟩, ⟨53726098738247374, 17⟩, ⟨0, 0⟩, ⟨24567077810105486, 10⟩, ⟨53726098738247374, 17⟩, ⟨0, 0⟩, ⟨24567077810105486, 10⟩, ⟨53726098738247374, 17⟩),
  (⟨24625663663045214, 10⟩, ⟨10160955714037034, 17⟩, ⟨0, 0⟩, ⟨24625663663045214, 10⟩, ⟨10160955714037034, 17⟩, ⟨0, 0⟩, ⟨24625663663045214, 10⟩, ⟨10160955714037034, 17⟩),
  (⟨24619258761834581, 10⟩, ⟨14944522007509409, 17⟩, ⟨0, 0⟩, ⟨24619258761834581, 10⟩, ⟨14944522007509409, 17⟩, ⟨0, 0⟩, ⟨24619258761834581, 10⟩, ⟨14944522007509409, 17⟩),
  (⟨24744190726586534, 10⟩, ⟨24643851242087689, 17⟩, ⟨0, 0⟩, ⟨24744190726586534, 10⟩, ⟨24643851242087689, 17⟩, ⟨0, 0⟩, ⟨24744190726586534, 10⟩, ⟨24643851242087689, 17⟩),
  (⟨24670420412275977, 10⟩, ⟨80574486830132686, 18⟩, ⟨0, 0⟩, ⟨24670420412275977, 10⟩, ⟨80574486830132686, 18⟩, ⟨0, 0⟩, ⟨24670420412275977, 10⟩, ⟨80574486830132686, 18⟩),
  (⟨24825554586877567, 10⟩, ⟨75958432933132469, 17⟩, ⟨0, 0⟩, ⟨24825554586877567, 10⟩, ⟨75958432933132469, 17⟩, ⟨0, 0⟩, ⟨24825554586877567, 10⟩, ⟨75958432933132469, 17⟩),
  (⟨24548694047298431, 10⟩, ⟨55120934380012054, 17⟩, ⟨0, 0⟩, ⟨24548694047298431, 10⟩, ⟨55120934380012054, 17⟩, ⟨0, 0⟩, ⟨24548694047298431, 10⟩, ⟨55120934380012054, 17⟩),
  (⟨24608116728099515, 10⟩, ⟨57304280462144319, 17⟩, ⟨0, 0⟩, ⟨24608116728099515, 10⟩, ⟨57304280462144319, 17⟩, ⟨0, 0⟩, ⟨24608116728099515, 10⟩, ⟨57304280462144319, 17⟩),
  (⟨24857354513849756, 10⟩, ⟨35672673954876688, 17⟩, ⟨0, 0⟩, ⟨24857354513849756, 10⟩, ⟨35672673954876688, 17⟩, ⟨0, 0⟩, ⟨24857354513849756, 10⟩, ⟨35672673954876688, 17⟩),
  (⟨24873683474948918, 10⟩, ⟨93425123451580183, 17⟩, ⟨0, 0⟩, ⟨24873683474948918, 10⟩, ⟨93425123451580183, 17⟩, ⟨0, 0⟩, ⟨24873683474948918, 10⟩, ⟨93425123451580183, 17⟩),
  (⟨24831996008036910, 10⟩, ⟨98640037971442229, 17⟩, ⟨0, 0⟩, ⟨24831996008036910, 10⟩, ⟨98640037971442229, 17⟩, ⟨0, 0⟩, ⟨24831996008036910, 10⟩, ⟨98640037971442229, 17⟩),
  (⟨24854522297584270, 10⟩, ⟨32618287702694926, 18⟩, ⟨0, 0⟩, ⟨24854522297584270, 10⟩, ⟨32618287702694926, 18⟩, ⟨0, 0⟩, ⟨24854522297584270, 10⟩, ⟨32618287702694926, 18⟩),
  (⟨24637578477579942, 10⟩, ⟨79284318245866381, 17⟩, ⟨0, 0⟩, ⟨24637578477579942, 10⟩, ⟨79284318245866381, 17⟩, ⟨0, 0⟩, ⟨24637578477579942, 10⟩, ⟨79284318245866381, 17⟩),
  (⟨24846911067677364, 10⟩, ⟨10972539359594702, 17⟩, ⟨0, 0⟩, ⟨24846911067677364, 10⟩, ⟨10972539359594702, 17⟩, ⟨0, 0⟩, ⟨24846911067677364, 10⟩, ⟨10972539359594702, 17⟩),
  (⟨24567184054604545, 10⟩, ⟨76193411195006411, 17⟩, ⟨0, 0⟩, ⟨24567184054604545, 10⟩, ⟨76193411195006411, 17⟩, ⟨0, 0⟩, ⟨24567184054604545, 10⟩, ⟨76193411195006411, 17⟩),
  (⟨24750488354309453, 10⟩, ⟨33430603442172357, 17⟩, ⟨0, 0⟩, ⟨24750488354309453, 10⟩, ⟨33430603442172357, 17⟩, ⟨0, 0⟩, ⟨24750488354309453, 10⟩, ⟨33430603442172357, 17⟩),
  (⟨24741935825321195, 10⟩, ⟨81905408851665140, 17⟩, ⟨0, 0⟩, ⟨24741935825321195, 10⟩, ⟨81905408851665140, 17⟩, ⟨0, 0⟩, ⟨24741935825321195, 10⟩, ⟨81905408851665140, 17⟩),
  (⟨24744010455606645, 10⟩, ⟨71776913763862593, 17⟩, ⟨0, 0⟩, ⟨24744010455606645, 10⟩, ⟨71776913763862593, 17⟩, ⟨0, 0⟩, ⟨24744010455606645, 10⟩, ⟨71776913763862593, 17⟩),
  (⟨24597578784049312, 10⟩, ⟨38676168062437188, 17⟩, ⟨0, 0⟩, ⟨24597578784049312, 10⟩, ⟨38676168062437188, 17⟩, ⟨0, 0⟩, ⟨24597578784049312, 10⟩, ⟨38676168062437188, 17⟩),
  (⟨24529527765105544, 10⟩, ⟨11584665631286606, 17⟩, ⟨0, 0⟩, ⟨24529527765105544, 10⟩, ⟨11584665631286606, 17⟩, ⟨0, 0⟩, ⟨24529527765105544, 10⟩, ⟨11584665631286606, 17⟩),
  (⟨24803028627545000, 10⟩, ⟨14395315288537647, 17⟩, ⟨0, 0⟩, ⟨24803028627545000, 10⟩, ⟨14395315288537647, 17⟩, ⟨0, 0⟩, ⟨24803028627545000, 10⟩, ⟨14395315288537647, 17⟩),
  (⟨24820655244669835, 10⟩, ⟨75153980131239717, 17⟩, ⟨0, 0⟩, ⟨24820655244669835, 10⟩, ⟨75153980131239717, 17⟩, ⟨0, 0⟩, ⟨24820655244669835, 10⟩, ⟨75153980131239717, 17⟩),
  (⟨24594365684789731, 10⟩, ⟨88729628121603754, 17⟩, ⟨0, 0⟩, ⟨24594365684789731, 10⟩, ⟨88729628121603754, 17⟩, ⟨0, 0⟩, ⟨24594365684789731, 10⟩, ⟨88729628121603754, 17⟩),
  (⟨24808671545706717, 10⟩, ⟨50369011341690850, 17⟩, ⟨0, 0⟩, ⟨24808671545706717, 10⟩, ⟨50369011341690850, 17⟩, ⟨0, 0⟩, ⟨24808671545706717, 10⟩, ⟨50369011341690850, 17⟩),
  (⟨24818263819487183, 10⟩, ⟨97193020933832319, 17⟩, ⟨0, 0⟩, ⟨24818263819487183, 10⟩, ⟨97193020933832319, 17⟩, ⟨0, 0⟩, ⟨24818263819487183, 10⟩, ⟨97193020933832319, 17⟩),
  (⟨24660829599746950, 10⟩, ⟨98524255823590645, 17⟩, ⟨0, 0⟩, ⟨24660829599746950, 10⟩, ⟨98524255823590645, 17⟩, ⟨0, 0⟩, ⟨24660829599746950, 10⟩, ⟨98524255823590645, 17⟩),
  (⟨24696890915794671, 10⟩, ⟨63969381407874359, 17⟩, ⟨0, 0⟩, ⟨24696890915794671, 10⟩, ⟨63969381407874359, 17⟩, ⟨0, 0⟩, ⟨24696890915794671, 10⟩, ⟨63969381407874359, 17⟩),
  (⟨24787987636837400, 10⟩, ⟨93873715094478138, 17⟩, ⟨0, 0⟩, ⟨24787987636837400, 10⟩, ⟨93873715094478138, 17⟩, ⟨0, 0⟩, ⟨24787987636837400, 10⟩, ⟨93873715094478138, 17⟩),
  (⟨24694963233755571, 10⟩, ⟨60011542863224776, 17⟩, ⟨0, 0⟩, ⟨24694963233755571, 10⟩, ⟨60011542863224776, 17⟩, ⟨0, 0⟩, ⟨24694963233755571, 10⟩, ⟨60011542863224776, 17⟩),
  (⟨24798292175975102, 10⟩, ⟨62762248393151954, 17⟩, ⟨0, 0⟩, ⟨24798292175975102, 10⟩, ⟨62762248393151954, 17⟩, ⟨0, 0⟩, ⟨24798292175975102, 10⟩, ⟨62762248393151954, 17⟩),
  (⟨24679394634154649, 10⟩, ⟨69720562956803667, 17⟩, ⟨0, 0⟩, ⟨24679394634154649, 10⟩, ⟨69720562956803667, 17⟩, ⟨0, 0⟩, ⟨24679394634154649, 10⟩, ⟨69720562956803667, 17⟩),
  (⟨24786055526415813, 10⟩, ⟨31758888400153729, 18⟩, ⟨0, 0⟩, ⟨24786055526415813, 10⟩, ⟨31758888400153729, 18⟩, ⟨0, 0⟩, ⟨24786055526415813, 10⟩, ⟨31758888400153729, 18⟩),
  (⟨24538450247726277, 10⟩, ⟨82134729138105078, 17⟩, ⟨0, 0⟩, ⟨24538450247726277, 10⟩, ⟨82134729138105078, 17⟩, ⟨0, 0⟩, ⟨24538450247726277, 10⟩, ⟨82134729138105078, 17⟩),
  (⟨24672327873971676, 10⟩, ⟨59922592398441510, 17⟩, ⟨0, 0⟩, ⟨24672327873971676, 10⟩, ⟨59922592398441510, 17⟩, ⟨0, 0⟩, ⟨24672327873971676, 10⟩, ⟨59922592398441510, 17⟩),
  (⟨24664647009455631, 10⟩, ⟨71628870904174913, 18⟩, ⟨0, 0⟩, ⟨24664647009455631, 10⟩, ⟨71628870904174913, 18⟩, ⟨0, 0⟩, ⟨24664647009455631, 10⟩, ⟨71628870904174913, 18⟩),
  (⟨24586507851142967, 10⟩, ⟨31246251722972562, 17⟩, ⟨0, 0⟩, ⟨24586507851142967, 10⟩, ⟨31246251722972562, 17⟩, ⟨0, 0⟩, ⟨24586507851142967, 10⟩, ⟨31246251722972562, 17⟩),
  (⟨24692622611903255, 10⟩, ⟨88572874394573475, 17⟩, ⟨0, 0⟩, ⟨24692622611903255, 10⟩, ⟨88572874394573475, 17⟩, ⟨0, 0⟩, ⟨24692622611903255, 10⟩, ⟨88572874394573475, 17⟩),
  (⟨24819875879851095, 10⟩, ⟨82570296641608210, 17⟩, ⟨0, 0⟩, ⟨24819875879851095, 10⟩, ⟨82570296641608210, 17⟩, ⟨0, 0⟩, ⟨24819875879851095, 10⟩, ⟨82570296641608210, 17⟩),
  (⟨24639324099862259, 10⟩, ⟨20492238804801177, 17⟩, ⟨0, 0⟩, ⟨24639324099862259, 10⟩, ⟨20492238804801177, 17⟩, ⟨0, 0⟩, ⟨24639324099862259, 10⟩, ⟨20492238804801177, 17⟩),
  (⟨24620882904959586, 10⟩, ⟨20288681190623059, 17⟩, ⟨0, 0⟩, ⟨24620882904959586, 10⟩, ⟨20288681190623059, 17⟩, ⟨0, 0⟩, ⟨24620882904959586, 10⟩, ⟨20288681190623059, 17⟩),
  (⟨24803234729287056, 10⟩, ⟨81186762974639304, 17⟩, ⟨0, 0⟩, ⟨24803234729287056, 10⟩, ⟨81186762974639304, 17⟩, ⟨0, 0⟩, ⟨24803234729287056, 10⟩, ⟨81186762974639304, 17⟩),
  (⟨24770227258788133, 10⟩, ⟨22107415529329266, 18⟩, ⟨0, 0⟩, ⟨24770227258788133, 10⟩, ⟨22107415529329266, 18⟩, ⟨0, 0⟩, ⟨24770227258788133, 10⟩, ⟨22107415529329266, 18⟩),
  (⟨24798622026460217, 10⟩, ⟨68654083826179502, 17⟩, ⟨0, 0⟩, ⟨24798622026460217, 10⟩, ⟨68654083826179502, 17⟩, ⟨0, 0⟩, ⟨24798622026460217, 10⟩, ⟨68654083826179502, 17⟩),
  (⟨24628101897096895, 10⟩, ⟨80117346660206568, 17⟩, ⟨0, 0⟩, ⟨24628101897096895, 10⟩, ⟨80117346660206568, 17⟩, ⟨0, 0⟩, ⟨24628101897096895, 10⟩, ⟨80117346660206568, 17⟩),
  (⟨24615467945200619, 10⟩, ⟨96371882025086064, 17⟩, ⟨0, 0⟩, ⟨24615467945200619, 10⟩, ⟨96371882025086064, 17⟩, ⟨0, 0⟩, ⟨24615467945200619, 10⟩, ⟨96371882025086064, 17⟩),
  (⟨24625924978975044, 10⟩, ⟨37934529906910230, 17⟩, ⟨0, 0⟩, ⟨24625924978975044, 10⟩, ⟨37934529906910230, 17⟩, ⟨0, 0⟩, ⟨24625924978975044, 10⟩, ⟨37934529906910230, 17⟩),
  (⟨24760808842917401, 10⟩, ⟨41806102013198454, 18⟩, ⟨0, 0⟩, ⟨24760808842917401, 10⟩, ⟨41806102013198454, 18⟩, ⟨0, 0⟩, ⟨24760808842917401, 10⟩, ⟨41806102013198454, 18⟩),
  (⟨24638227184376502, 10⟩, ⟨95461678917712300, 17⟩, ⟨0, 0⟩, ⟨24638227184376502, 10⟩, ⟨95461678917712300, 17⟩, ⟨0, 0⟩, ⟨24638227184376502, 10⟩, ⟨95461678917712300, 17⟩),
  (⟨24574247970333113, 10⟩, ⟨51415462281352309, 17⟩, ⟨0, 0⟩, ⟨24574247970333113, 10⟩, ⟨51415462281352309, 17⟩, ⟨0, 0⟩, ⟨24574247970333113, 10⟩, ⟨51415462281352309, 17⟩),
  (⟨24813324898724984, 10⟩, ⟨32040034891299507, 17⟩, ⟨0, 0⟩, ⟨24813324898724984, 10⟩, ⟨32040034891299507, 17⟩, ⟨0, 0⟩, ⟨24813324898724984, 10⟩, ⟨32040034891299507, 17⟩),
  (⟨24674873681560643, 10⟩, ⟨66874691951087650, 17⟩, ⟨0, 0⟩, ⟨24674873681560643, 10⟩, ⟨66874691951087650, 17⟩, ⟨0, 0⟩, ⟨24674873681560643, 10⟩, ⟨66874691951087650, 17⟩),
  (⟨24619882779564941, 10⟩, ⟨78694754078241758, 17⟩, ⟨0, 0⟩, ⟨24619882779564941, 10⟩, ⟨78694754078241758, 17⟩, ⟨0, 0⟩, ⟨24619882779564941, 10⟩, ⟨78694754078241758, 17⟩),
  (⟨24657899818702093, 10⟩, ⟨19058237015399770, 18⟩, ⟨0, 0⟩, ⟨24657899818702093, 10⟩, ⟨19058237015399770, 18⟩, ⟨0, 0⟩, ⟨24657899818702093, 10⟩, ⟨19058237015399770, 18⟩),
  (⟨24845062629864309, 10⟩, ⟨87188751060625480, 17⟩, ⟨0, 0⟩, ⟨24845062629864309, 10⟩, ⟨87188751060625480, 17⟩, ⟨0, 0⟩, ⟨24845062629864309, 10⟩, ⟨87188751060625480, 17⟩),
  (⟨24556622544151205, 10⟩, ⟨39986807430109017, 17⟩, ⟨0, 0⟩, ⟨24556622544151205, 10⟩, ⟨39986807430109017, 17⟩, ⟨0, 0⟩, ⟨24556622544151205, 10⟩, ⟨39986807430109017, 17⟩),
  (⟨24778791844405937, 10⟩, ⟨25590152383987541, 17⟩, ⟨0, 0⟩, ⟨24778791844405937, 10⟩, ⟨25590152383987541, 17⟩, ⟨0, 0⟩, ⟨24778791844405937, 10⟩, ⟨25590152383987541, 17⟩),
  (⟨24636558825849690, 10⟩, ⟨92367824263106446, 17⟩, ⟨0, 0⟩, ⟨24636558825849690, 10⟩, ⟨92367824263106446, 17⟩, ⟨0, 0⟩, ⟨24636558825849690, 10⟩, ⟨92367824263106446, 17⟩),
  (⟨24626982536054654, 10⟩, ⟨37686964852028426, 17⟩, ⟨0, 0⟩, ⟨24626982536054654, 10⟩, ⟨37686964852028426, 17⟩, ⟨0, 0⟩, ⟨24626982536054654, 10⟩, ⟨37686964852028426, 17⟩),
  (⟨24716986515939543, 10⟩, ⟨94735775869948802, 17⟩, ⟨0, 0⟩, ⟨24716986515939543, 10⟩, ⟨94735775869948802, 17⟩, ⟨0, 0⟩, ⟨24716986515939543, 10⟩, ⟨94735775869948802, 17⟩),
  (⟨24522549712717715, 10⟩, ⟨83994961981950877, 17⟩, ⟨0, 0⟩, ⟨24522549712717715, 10⟩, ⟨83994961981950877, 17⟩, ⟨0, 0⟩, ⟨24522549712717715, 10⟩, ⟨83994961981950877, 17⟩),
  (⟨24602878645287259, 10⟩, ⟨14166619985979623, 17⟩, ⟨0, 0⟩, ⟨24602878645287259, 10⟩, ⟨14166619985979623, 17⟩, ⟨0, 0⟩, ⟨24602878645287259, 10⟩, ⟨14166619985979623, 17⟩),
  (⟨24815758178865220, 10⟩, ⟨34110803857259642, 17⟩, ⟨0, 0⟩, ⟨24815758178865220, 10⟩, ⟨34110803857259642, 17⟩, ⟨0, 0⟩, ⟨24815758178865220, 10⟩, ⟨34110803857259642, 17⟩),
  (⟨24544048993592956, 10⟩, ⟨18497956256501957, 17⟩, ⟨0, 0⟩, ⟨24544048993592956, 10⟩, ⟨18497956256501957, 17⟩, ⟨0, 0⟩, ⟨24544048993592956, 10⟩, ⟨18497956256501957, 17⟩),
  (⟨24645754130652635, 10⟩, ⟨17261870415079350, 17⟩, ⟨0, 0⟩, ⟨24645754130652635, 10⟩, ⟨17261870415079350, 17⟩, ⟨0, 0⟩, ⟨24645754130652635, 10⟩, ⟨17261870415079350, 17⟩),
  (⟨24766189842622848, 10⟩, ⟨34996163527662905, 17⟩, ⟨0, 0⟩, ⟨24766189842622848, 10⟩, ⟨34996163527662905, 17⟩, ⟨0, 0⟩, ⟨24766189842622848, 10⟩, ⟨34996163527662905, 17⟩),
  (⟨24682276302368902, 10⟩, ⟨91042636556002932, 17⟩, ⟨0, 0⟩, ⟨24682276302368902, 10⟩, ⟨91042636556002932, 17⟩, ⟨0, 0⟩, ⟨24682276302368902, 10⟩, ⟨91042636556002932, 17⟩),
  (⟨24833407115976578, 10⟩, ⟨91640679205141384, 17⟩, ⟨0, 0⟩, ⟨24833407115976578, 10⟩, ⟨91640679205141384, 17⟩, ⟨0, 0⟩, ⟨24833407115976578, 10⟩, ⟨91640679205141384, 17⟩),
  (⟨24644639720503022, 10⟩, ⟨58159321160524469, 17⟩, ⟨0, 0⟩, ⟨24644639720503022, 10⟩, ⟨58159321160524469, 17⟩, ⟨0, 0⟩, ⟨24644639720503022, 10⟩, ⟨58159321160524469, 17⟩),
  (⟨24868917637414574, 10⟩, ⟨79269100157500727, 17⟩, ⟨0, 0⟩, ⟨24868917637414574, 10⟩, ⟨79269100157500727, 17⟩, ⟨0, 0⟩, ⟨24868917637414574, 10⟩, ⟨79269100157500727, 17⟩),
  (⟨24848353619811870, 10⟩, ⟨27039632775720779, 17⟩, ⟨0, 0⟩, ⟨24848353619811870, 10⟩, ⟨27039632775720779, 17⟩, ⟨0, 0⟩, ⟨24848353619811870, 10⟩, ⟨27039632775720779, 17⟩),
  (⟨24571885635428545, 10⟩, ⟨30520163999632610, 17⟩, ⟨0, 0⟩, ⟨24571885635428545, 10⟩, ⟨30520163999632610, 17⟩, ⟨0, 0⟩, ⟨24571885635428545, 10⟩, ⟨30520163999632610, 17⟩),
  (⟨24773121735211490, 10⟩, ⟨48185295634386804, 17⟩, ⟨0, 0⟩, ⟨24773121735211490, 10⟩, ⟨48185295634386804, 17⟩, ⟨0, 0⟩, ⟨24773121735211490, 10⟩, ⟨48185295634386804, 17⟩),
  (⟨24719189264593353, 10⟩, ⟨56082986941631607, 18⟩, ⟨0, 0⟩, ⟨24719189264593353, 10⟩, ⟨56082986941631607, 18⟩, ⟨0, 0⟩, ⟨24719189264593353, 10⟩, ⟨56082986941631607, 18⟩),
  (⟨24816678770961259, 10⟩, ⟨73181053691571096, 17⟩, ⟨0, 0⟩, ⟨24816678770961259, 10⟩, ⟨73181053691571096, 17⟩, ⟨0, 0⟩, ⟨24816678770961259, 10⟩, ⟨73181053691571096, 17⟩),
  (⟨24702172089765500, 10⟩, ⟨63064859233952997, 17⟩, ⟨0, 0⟩, ⟨24702172089765500, 10⟩, ⟨63064859233952997, 17⟩, ⟨0, 0⟩, ⟨24702172089765500, 10⟩, ⟨63064859233952997, 17⟩),
  (⟨24735654191989624, 10⟩, ⟨96054491435277156, 17⟩, ⟨0, 0⟩, ⟨24735654191989624, 10⟩, ⟨96054491435277156, 17⟩, ⟨0, 0⟩, ⟨24735654191989624, 10⟩, ⟨96054491435277156, 17⟩)]

/-- Entries 100 to 199. -/
def C2t_1 : List (Dec × Dec × Dec × Dec × Dec × Dec × Dec × Dec) := [
  (⟨24686901734269694, 10⟩, ⟨54807170100159652, 17⟩, ⟨0, 0⟩, ⟨24686901734269694, 10⟩, ⟨54807170100159652, 17⟩, ⟨0, 0⟩, ⟨24686901734269694, 10⟩, ⟨54807170100159652, 17⟩),
  (⟨24646330304657766, 10⟩, ⟨10668046833712130, 17⟩, ⟨0, 0⟩, ⟨24646330304657766, 10⟩, ⟨10668046833712130, 17⟩, ⟨0, 0⟩, ⟨24646330304657766, 10⟩, ⟨10668046833712130, 17⟩),
  (⟨24695539384406772, 10⟩, ⟨64503545716872568, 17⟩, ⟨0, 0⟩, ⟨24695539384406772, 10⟩, ⟨64503545716872568, 17⟩, ⟨0, 0⟩, ⟨24695539384406772, 10⟩, ⟨64503545716872568, 17⟩),
  (⟨24838803245906141, 10⟩, ⟨81443768102172753, 17⟩, ⟨0, 0⟩, ⟨24838803245906141, 10⟩, ⟨81443768102172753, 17⟩, ⟨0, 0⟩, ⟨24838803245906141, 10⟩, ⟨81443768102172753, 17⟩),
  (⟨24668084477626570, 10⟩, ⟨71568930118944352, 17⟩, ⟨0, 0⟩, ⟨24668084477626570, 10⟩, ⟨71568930118944352, 17⟩, ⟨0, 0⟩, ⟨24668084477626570, 10⟩, ⟨71568930118944352, 17⟩),
  (⟨24526513401064640, 10⟩, ⟨38741422424120375, 17⟩, ⟨0, 0⟩, ⟨24526513401064640, 10⟩, ⟨38741422424120375, 17⟩, ⟨0, 0⟩, ⟨24526513401064640, 10⟩, ⟨38741422424120375, 17⟩),
  (⟨24654139565380956, 10⟩, ⟨65406342749550206, 17⟩, ⟨0, 0⟩, ⟨24654139565380956, 10⟩, ⟨65406342749550206, 17⟩, ⟨0, 0⟩, ⟨24654139565380956, 10⟩, ⟨65406342749550206, 17⟩),
  (⟨24548383106530956, 10⟩, ⟨17791571394479944, 17⟩, ⟨0, 0⟩, ⟨24548383106530956, 10⟩, ⟨17791571394479944, 17⟩, ⟨0, 0⟩, ⟨24548383106530956, 10⟩, ⟨17791571394479944, 17⟩),
  (⟨24533724280406991, 10⟩, ⟨78317832367129481, 17⟩, ⟨0, 0⟩, ⟨24533724280406991, 10⟩, ⟨78317832367129481, 17⟩, ⟨0, 0⟩, ⟨24533724280406991, 10⟩, ⟨78317832367129481, 17⟩),
  (⟨24535444672795511, 10⟩, ⟨11261562763041133, 17⟩, ⟨0, 0⟩, ⟨24535444672795511, 10⟩, ⟨11261562763041133, 17⟩, ⟨0, 0⟩, ⟨24535444672795511, 10⟩, ⟨11261562763041133, 17⟩),
  (⟨24584729143660809, 10⟩, ⟨88690601590770912, 18⟩, ⟨0, 0⟩, ⟨24584729143660809, 10⟩, ⟨88690601590770912, 18⟩, ⟨0, 0⟩, ⟨24584729143660809, 10⟩, ⟨88690601590770912, 18⟩),
  (⟨24851348591695009, 10⟩, ⟨33410678733897958, 17⟩, ⟨0, 0⟩, ⟨24851348591695009, 10⟩, ⟨33410678733897958, 17⟩, ⟨0, 0⟩, ⟨24851348591695009, 10⟩, ⟨33410678733897958, 17⟩),
  (⟨24621818774167947, 10⟩, ⟨33308049663603567, 17⟩, ⟨0, 0⟩, ⟨24621818774167947, 10⟩, ⟨33308049663603567, 17⟩, ⟨0, 0⟩, ⟨24621818774167947, 10⟩, ⟨33308049663603567, 17⟩),
  (⟨24852906716522989, 10⟩, ⟨69527089266714359, 17⟩, ⟨0, 0⟩, ⟨24852906716522989, 10⟩, ⟨69527089266714359, 17⟩, ⟨0, 0⟩, ⟨24852906716522989, 10⟩, ⟨69527089266714359, 17⟩),
  (⟨24830796156003368, 10⟩, ⟨50619730475459757, 18⟩, ⟨0, 0⟩, ⟨24830796156003368, 10⟩, ⟨50619730475459757, 18⟩, ⟨0, 0⟩, ⟨24830796156003368, 10⟩, ⟨50619730475459757, 18⟩),
  (⟨24542009800805636, 10⟩, ⟨10364923052947694, 17⟩, ⟨0, 0⟩, ⟨24542009800805636, 10⟩, ⟨10364923052947694, 17⟩, ⟨0, 0⟩, ⟨24542009800805636, 10⟩, ⟨10364923052947694, 17⟩),
  (⟨24560193535109512, 10⟩, ⟨93702790557905935, 17⟩, ⟨0, 0⟩, ⟨24560193535109512, 10⟩, ⟨93702790557905935, 17⟩, ⟨0, 0⟩, ⟨24560193535109512, 10⟩, ⟨93702790557905935, 17⟩),
  (⟨24538896925921929, 10⟩, ⟨85963222132820227, 17⟩, ⟨0, 0⟩, ⟨24538896925921929, 10⟩, ⟨85963222132820227, 17⟩, ⟨0, 0⟩, ⟨24538896925921929, 10⟩, ⟨85963222132820227, 17⟩),
  (⟨24533474424840207, 10⟩, ⟨32011625444175096, 17⟩, ⟨0, 0⟩, ⟨24533474424840207, 10⟩, ⟨32011625444175096, 17⟩, ⟨0, 0⟩, ⟨24533474424840207, 10⟩, ⟨32011625444175096, 17⟩),
  (⟨24659846675884314, 10⟩, ⟨29383717758377226, 18⟩, ⟨0, 0⟩, ⟨24659846675884314, 10⟩, ⟨29383717758377226, 18⟩, ⟨0, 0⟩, ⟨24659846675884314, 10⟩, ⟨29383717758377226, 18⟩),
  (⟨24628068728499748, 10⟩, ⟨78717171918117235, 17⟩, ⟨0, 0⟩, ⟨24628068728499748, 10⟩, ⟨78717171918117235, 17⟩, ⟨0, 0⟩, ⟨24628068728499748, 10⟩, ⟨78717171918117235, 17⟩),
  (⟨24713823659009775, 10⟩, ⟨88523998208637134, 17⟩, ⟨0, 0⟩, ⟨24713823659009775, 10⟩, ⟨88523998208637134, 17⟩, ⟨0, 0⟩, ⟨24713823659009775, 10⟩, ⟨88523998208637134, 17⟩),
  (⟨24838173745610067, 10⟩, ⟨19162520778683179, 17⟩, ⟨0, 0⟩, ⟨24838173745610067, 10⟩, ⟨19162520778683179, 17⟩, ⟨0, 0⟩, ⟨24838173745610067, 10⟩, ⟨19162520778683179, 17⟩),
  (⟨24515507431189045, 10⟩, ⟨37364791073558712, 17⟩, ⟨0, 0⟩, ⟨24515507431189045, 10⟩, ⟨37364791073558712, 17⟩, ⟨0, 0⟩, ⟨24515507431189045, 10⟩, ⟨37364791073558712, 17⟩),
  (⟨24786257281327117, 10⟩, ⟨29790450422484738, 18⟩, ⟨0, 0⟩, ⟨24786257281327117, 10⟩, ⟨29790450422484738, 18⟩, ⟨0, 0⟩, ⟨24786257281327117, 10⟩, ⟨29790450422484738, 18⟩),
  (⟨24873713361280253, 10⟩, ⟨82048011814927169, 17⟩, ⟨0, 0⟩, ⟨24873713361280253, 10⟩, ⟨82048011814927169, 17⟩, ⟨0, 0⟩, ⟨24873713361280253, 10⟩, ⟨82048011814927169, 17⟩),
  (⟨24673532887425642, 10⟩, ⟨16497326947326774, 17⟩, ⟨0, 0⟩, ⟨24673532887425642, 10⟩, ⟨16497326947326774, 17⟩, ⟨0, 0⟩, ⟨24673532887425642, 10⟩, ⟨16497326947326774, 17⟩),
  (⟨24872504442572664, 10⟩, ⟨31857956288360101, 17⟩, ⟨0, 0⟩, ⟨24872504442572664, 10⟩, ⟨31857956288360101, 17⟩, ⟨0, 0⟩, ⟨24872504442572664, 10⟩, ⟨31857956288360101, 17⟩),
  (⟨24868345929453061, 10⟩, ⟨58304493096525101, 17⟩, ⟨0, 0⟩, ⟨24868345929453061, 10⟩, ⟨58304493096525101, 17⟩, ⟨0, 0⟩, ⟨24868345929453061, 10⟩, ⟨58304493096525101, 17⟩),
  (⟨24589903052200526, 10⟩, ⟨29663455723749488, 17⟩, ⟨0, 0⟩, ⟨24589903052200526, 10⟩, ⟨29663455723749488, 17⟩, ⟨0, 0⟩, ⟨24589903052200526, 10⟩, ⟨29663455723749488, 17⟩),
  (⟨24543848199406932, 10⟩, ⟨83019158169969731, 17⟩, ⟨0, 0⟩, ⟨24543848199406932, 10⟩, ⟨83019158169969731, 17⟩, ⟨0, 0⟩, ⟨24543848199406932, 10⟩, ⟨83019158169969731, 17⟩),
  (⟨24650852780869626, 10⟩, ⟨94850470194330583, 17⟩, ⟨0, 0⟩, ⟨24650852780869626, 10⟩, ⟨94850470194330583, 17⟩, ⟨0, 0⟩, ⟨24650852780869626, 10⟩, ⟨94850470194330583, 17⟩),
  (⟨24830626787307612, 10⟩, ⟨22467406954704539, 17⟩, ⟨0, 0⟩, ⟨24830626787307612, 10⟩, ⟨22467406954704539, 17⟩, ⟨0, 0⟩, ⟨24830626787307612, 10⟩, ⟨22467406954704539, 17⟩),
  (⟨24628506096408595, 10⟩, ⟨30377664972522422, 17⟩, ⟨0, 0⟩, ⟨24628506096408595, 10⟩, ⟨30377664972522422, 17⟩, ⟨0, 0⟩, ⟨24628506096408595, 10⟩, ⟨30377664972522422, 17⟩),
  (⟨24542391930909092, 10⟩, ⟨21874940084841332, 17⟩, ⟨0, 0⟩, ⟨24542391930909092, 10⟩, ⟨21874940084841332, 17⟩, ⟨0, 0⟩, ⟨24542391930909092, 10⟩, ⟨21874940084841332, 17⟩),
  (⟨24871660012612338, 10⟩, ⟨29181301777879298, 17⟩, ⟨0, 0⟩, ⟨24871660012612338, 10⟩, ⟨29181301777879298, 17⟩, ⟨0, 0⟩, ⟨24871660012612338, 10⟩, ⟨29181301777879298, 17⟩),
  (⟨24760065201258860, 10⟩, ⟨68804272142782874, 17⟩, ⟨0, 0⟩, ⟨24760065201258860, 10⟩, ⟨68804272142782874, 17⟩, ⟨0, 0⟩, ⟨24760065201258860, 10⟩, ⟨68804272142782874, 17⟩),
  (⟨24783821168800350, 10⟩, ⟨12253964353999358, 17⟩, ⟨0, 0⟩, ⟨24783821168800350, 10⟩, ⟨12253964353999358, 17⟩, ⟨0, 0⟩, ⟨24783821168800350, 10⟩, ⟨12253964353999358, 17⟩),
  (⟨24634000692138220, 10⟩, ⟨40088552382561315, 17⟩, ⟨0, 0⟩, ⟨24634000692138220, 10⟩, ⟨40088552382561315, 17⟩, ⟨0, 0⟩, ⟨24634000692138220, 10⟩, ⟨40088552382561315, 17⟩),
  (⟨24550531751807644, 10⟩, ⟨33614460966200821, 17⟩, ⟨0, 0⟩, ⟨24550531751807644, 10⟩, ⟨33614460966200821, 17⟩, ⟨0, 0⟩, ⟨24550531751807644, 10⟩, ⟨33614460966200821, 17⟩),
  (⟨24767779520596797, 10⟩, ⟨82850139332174488, 17⟩, ⟨0, 0⟩, ⟨24767779520596797, 10⟩, ⟨82850139332174488, 17⟩, ⟨0, 0⟩, ⟨24767779520596797, 10⟩, ⟨82850139332174488, 17⟩),
  (⟨24560000075980215, 10⟩, ⟨75110044915233687, 17⟩, ⟨0, 0⟩, ⟨24560000075980215, 10⟩, ⟨75110044915233687, 17⟩, ⟨0, 0⟩, ⟨24560000075980215, 10⟩, ⟨75110044915233687, 17⟩),
  (⟨24578350606343765, 10⟩, ⟨27591670118822886, 17⟩, ⟨0, 0⟩, ⟨24578350606343765, 10⟩, ⟨27591670118822886, 17⟩, ⟨0, 0⟩, ⟨24578350606343765, 10⟩, ⟨27591670118822886, 17⟩),
  (⟨24542460018945569, 10⟩, ⟨38662496658259304, 17⟩, ⟨0, 0⟩, ⟨24542460018945569, 10⟩, ⟨38662496658259304, 17⟩, ⟨0, 0⟩, ⟨24542460018945569, 10⟩, ⟨38662496658259304, 17⟩),
  (⟨24841043257846506, 10⟩, ⟨15445233336329300, 18⟩, ⟨0, 0⟩, ⟨24841043257846506, 10⟩, ⟨15445233336329300, 18⟩, ⟨0, 0⟩, ⟨24841043257846506, 10⟩, ⟨15445233336329300, 18⟩),
  (⟨24649798261834774, 10⟩, ⟨88005146104005227, 18⟩, ⟨0, 0⟩, ⟨24649798261834774, 10⟩, ⟨88005146104005227, 18⟩, ⟨0, 0⟩, ⟨24649798261834774, 10⟩, ⟨88005146104005227, 18⟩),
  (⟨24810942984429733, 10⟩, ⟨83498462128081519, 17⟩, ⟨0, 0⟩, ⟨24810942984429733, 10⟩, ⟨83498462128081519, 17⟩, ⟨0, 0⟩, ⟨24810942984429733, 10⟩, ⟨83498462128081519, 17⟩),
  (⟨24694705413238485, 10⟩, ⟨79258328819381985, 17⟩, ⟨0, 0⟩, ⟨24694705413238485, 10⟩, ⟨79258328819381985, 17⟩, ⟨0, 0⟩, ⟨24694705413238485, 10⟩, ⟨79258328819381985, 17⟩),
  (⟨24527770603656229, 10⟩, ⟨25288004449703672, 17⟩, ⟨0, 0⟩, ⟨24527770603656229, 10⟩, ⟨25288004449703672, 17⟩, ⟨0, 0⟩, ⟨24527770603656229, 10⟩, ⟨25288004449703672, 17⟩),
  (⟨24613746700838809, 10⟩, ⟨71002936164942176, 17⟩, ⟨0, 0⟩, ⟨24613746700838809, 10⟩, ⟨71002936164942176, 17⟩, ⟨0, 0⟩, ⟨24613746700838809, 10⟩, ⟨71002936164942176, 17⟩),
  (⟨24585193997340603, 10⟩, ⟨66464566845573747, 17⟩, ⟨0, 0⟩, ⟨24585193997340603, 10⟩, ⟨66464566845573747, 17⟩, ⟨0, 0⟩, ⟨24585193997340603, 10⟩, ⟨66464566845573747, 17⟩),
  (⟨24849506144480617, 10⟩, ⟨85122730269538882, 17⟩, ⟨0, 0⟩, ⟨24849506144480617, 10⟩, ⟨85122730269538882, 17⟩, ⟨0, 0⟩, ⟨24849506144480617, 10⟩, ⟨85122730269538882, 17⟩),
  (⟨24832411859528795, 10⟩, ⟨10075825773103853, 17⟩, ⟨0, 0⟩, ⟨24832411859528795, 10⟩, ⟨10075825773103853, 17⟩, ⟨0, 0⟩, ⟨24832411859528795, 10⟩, ⟨10075825773103853, 17⟩),
  (⟨24596967436012058, 10⟩, ⟨34742259306266310, 17⟩, ⟨0, 0⟩, ⟨24596967436012058, 10⟩, ⟨34742259306266310, 17⟩, ⟨0, 0⟩, ⟨24596967436012058, 10⟩, ⟨34742259306266310, 17⟩),
  (⟨24858259328603717, 10⟩, ⟨17836069336466553, 17⟩, ⟨0, 0⟩, ⟨24858259328603717, 10⟩, ⟨17836069336466553, 17⟩, ⟨0, 0⟩, ⟨24858259328603717, 10⟩, ⟨17836069336466553, 17⟩),
  (⟨24571387954728664, 10⟩, ⟨40432508287428592, 17⟩, ⟨0, 0⟩, ⟨24571387954728664, 10⟩, ⟨40432508287428592, 17⟩, ⟨0, 0⟩, ⟨24571387954728664, 10⟩, ⟨40432508287428592, 17⟩),
  (⟨24587435893938616, 10⟩, ⟨41917421046565295, 17⟩, ⟨0, 0⟩, ⟨24587435893938616, 10⟩, ⟨41917421046565295, 17⟩, ⟨0, 0⟩, ⟨24587435893938616, 10⟩, ⟨41917421046565295, 17⟩),
  (⟨24575131381375832, 10⟩, ⟨73063308315620934, 17⟩, ⟨0, 0⟩, ⟨24575131381375832, 10⟩, ⟨73063308315620934, 17⟩, ⟨0, 0⟩, ⟨24575131381375832, 10⟩, ⟨73063308315620934, 17⟩),
  (⟨24855364870594931, 10⟩, ⟨49672096270443233, 17⟩, ⟨0, 0⟩, ⟨24855364870594931, 10⟩, ⟨49672096270443233, 17⟩, ⟨0, 0⟩, ⟨24855364870594931, 10⟩, ⟨49672096270443233, 17⟩),
  (⟨24606393621414131, 10⟩, ⟨63962628718665426, 18⟩, ⟨0, 0⟩, ⟨24606393621414131, 10⟩, ⟨63962628718665426, 18⟩, ⟨0, 0⟩, ⟨24606393621414131, 10⟩, ⟨63962628718665426, 18⟩),
  (⟨24706600393568324, 10⟩, ⟨20897817000259333, 17⟩, ⟨0, 0⟩, ⟨24706600393568324, 10⟩, ⟨20897817000259333, 17⟩, ⟨0, 0⟩, ⟨24706600393568324, 10⟩, ⟨20897817000259333, 17⟩),
  (⟨24807702395633436, 10⟩, ⟨95712356612973892, 17⟩, ⟨0, 0⟩, ⟨24807702395633436, 10⟩, ⟨95712356612973892, 17⟩, ⟨0, 0⟩, ⟨24807702395633436, 10⟩, ⟨95712356612973892, 17⟩),
  (⟨24778868447579904, 10⟩, ⟨17904097293171117, 17⟩, ⟨0, 0⟩, ⟨24778868447579904, 10⟩, ⟨17904097293171117, 17⟩, ⟨0, 0⟩, ⟨24778868447579904, 10⟩, ⟨17904097293171117, 17⟩),
  (⟨24701835796048935, 10⟩, ⟨94580578848179753, 17⟩, ⟨0, 0⟩, ⟨24701835796048935, 10⟩, ⟨94580578848179753, 17⟩, ⟨0, 0⟩, ⟨24701835796048935, 10⟩, ⟨94580578848179753, 17⟩),
  (⟨24631093821346760, 10⟩, ⟨11293824306075606, 17⟩, ⟨0, 0⟩, ⟨24631093821346760, 10⟩, ⟨11293824306075606, 17⟩, ⟨0, 0⟩, ⟨24631093821346760, 10⟩, ⟨11293824306075606, 17⟩),
  (⟨24566934626522902, 10⟩, ⟨55608967224986761, 18⟩, ⟨0, 0⟩, ⟨24566934626522902, 10⟩, ⟨55608967224986761, 18⟩, ⟨0, 0⟩, ⟨24566934626522902, 10⟩, ⟨55608967224986761, 18⟩),
  (⟨24796356514720195, 10⟩, ⟨49617217896010568, 17⟩, ⟨0, 0⟩, ⟨24796356514720195, 10⟩, ⟨49617217896010568, 17⟩, ⟨0, 0⟩, ⟨24796356514720195, 10⟩, ⟨49617217896010568, 17⟩),
  (⟨24683793659532019, 10⟩, ⟨49490342552578404, 17⟩, ⟨0, 0⟩, ⟨24683793659532019, 10⟩, ⟨49490342552578404, 17⟩, ⟨0, 0⟩, ⟨24683793659532019, 10⟩, ⟨49490342552578404, 17⟩),
  (⟨24681743009554446, 10⟩, ⟨92348963088586733, 17⟩, ⟨0, 0⟩, ⟨24681743009554446, 10⟩, ⟨92348963088586733, 17⟩, ⟨0, 0⟩, ⟨24681743009554446, 10⟩, ⟨92348963088586733, 17⟩),
  (⟨24701703695001258, 10⟩, ⟨99676912953378405, 17⟩, ⟨0, 0⟩, ⟨24701703695001258, 10⟩, ⟨99676912953378405, 17⟩, ⟨0, 0⟩, ⟨24701703695001258, 10⟩, ⟨99676912953378405, 17⟩),
  (⟨24602359624762121, 10⟩, ⟨39027182662887805, 17⟩, ⟨0, 0⟩, ⟨24602359624762121, 10⟩, ⟨39027182662887805, 17⟩, ⟨0, 0⟩, ⟨24602359624762121, 10⟩, ⟨39027182662887805, 17⟩),
  (⟨24694813886059495, 10⟩, ⟨65350594170856902, 17⟩, ⟨0, 0⟩, ⟨24694813886059495, 10⟩, ⟨65350594170856902, 17⟩, ⟨0, 0⟩, ⟨24694813886059495, 10⟩, ⟨65350594170856902, 17⟩),
  (⟨24857278949171240, 10⟩, ⟨12041249737072879, 17⟩, ⟨0, 0⟩, ⟨24857278949171240, 10⟩, ⟨12041249737072879, 17⟩, ⟨0, 0⟩, ⟨24857278949171240, 10⟩, ⟨12041249737072879, 17⟩),
  (⟨24712898799216519, 10⟩, ⟨18435969732666713, 17⟩, ⟨0, 0⟩, ⟨24712898799216519, 10⟩, ⟨18435969732666713, 17⟩, ⟨0, 0⟩, ⟨24712898799216519, 10⟩, ⟨18435969732666713, 17⟩),
  (⟨24712543320283503, 10⟩, ⟨58476001971591629, 17⟩, ⟨0, 0⟩, ⟨24712543320283503, 10⟩, ⟨58476001971591629, 17⟩, ⟨0, 0⟩, ⟨24712543320283503, 10⟩, ⟨58476001971591629, 17⟩),
  (⟨24555843847579649, 10⟩, ⟨59428595519834437, 17⟩, ⟨0, 0⟩, ⟨24555843847579649, 10⟩, ⟨59428595519834437, 17⟩, ⟨0, 0⟩, ⟨24555843847579649, 10⟩, ⟨59428595519834437, 17⟩),
  (⟨24563002179069170, 10⟩, ⟨72813858754341332, 17⟩, ⟨0, 0⟩, ⟨24563002179069170, 10⟩, ⟨72813858754341332, 17⟩, ⟨0, 0⟩, ⟨24563002179069170, 10⟩, ⟨72813858754341332, 17⟩),
  (⟨24544655748311421, 10⟩, ⟨70052504695791940, 17⟩, ⟨0, 0⟩, ⟨24544655748311421, 10⟩, ⟨70052504695791940, 17⟩, ⟨0, 0⟩, ⟨24544655748311421, 10⟩, ⟨70052504695791940, 17⟩),
  (⟨24859523021518025, 10⟩, ⟨97720535900652439, 18⟩, ⟨0, 0⟩, ⟨24859523021518025, 10⟩, ⟨97720535900652439, 18⟩, ⟨0, 0⟩, ⟨24859523021518025, 10⟩, ⟨97720535900652439, 18⟩),
  (⟨24811969577873391, 10⟩, ⟨66172423731605912, 17⟩, ⟨0, 0⟩, ⟨24811969577873391, 10⟩, ⟨66172423731605912, 17⟩, ⟨0, 0⟩, ⟨24811969577873391, 10⟩, ⟨66172423731605912, 17⟩),
  (⟨24728320314289657, 10⟩, ⟨97597721670304649, 17⟩, ⟨0, 0⟩, ⟨24728320314289657, 10⟩, ⟨97597721670304649, 17⟩, ⟨0, 0⟩, ⟨24728320314289657, 10⟩, ⟨97597721670304649, 17⟩),
  (⟨24862924012265201, 10⟩, ⟨82657897407110892, 17⟩, ⟨0, 0⟩, ⟨24862924012265201, 10⟩, ⟨82657897407110892, 17⟩, ⟨0, 0⟩, ⟨24862924012265201, 10⟩, ⟨82657897407110892, 17⟩),
  (⟨24775338574732533, 10⟩, ⟨80931714285335132, 17⟩, ⟨0, 0⟩, ⟨24775338574732533, 10⟩, ⟨80931714285335132, 17⟩, ⟨0, 0⟩, ⟨24775338574732533, 10⟩, ⟨80931714285335132, 17⟩),
  (⟨24675667271347935, 10⟩, ⟨95212233526271617, 18⟩, ⟨0, 0⟩, ⟨24675667271347935, 10⟩, ⟨95212233526271617, 18⟩, ⟨0, 0⟩, ⟨24675667271347935, 10⟩, ⟨95212233526271617, 18⟩),
  (⟨24749575637174789, 10⟩, ⟨37300305404270895, 17⟩, ⟨0, 0⟩, ⟨24749575637174789, 10⟩, ⟨37300305404270895, 17⟩, ⟨0, 0⟩, ⟨24749575637174789, 10⟩, ⟨37300305404270895, 17⟩),
  (⟨24831292249208712, 10⟩, ⟨86002408743591863, 17⟩, ⟨0, 0⟩, ⟨24831292249208712, 10⟩, ⟨86002408743591863, 17⟩, ⟨0, 0⟩, ⟨24831292249208712, 10⟩, ⟨86002408743591863, 17⟩),
  (⟨24712332306419360, 10⟩, ⟨27206577129870757, 17⟩, ⟨0, 0⟩, ⟨24712332306419360, 10⟩, ⟨27206577129870757, 17⟩, ⟨0, 0⟩, ⟨24712332306419360, 10⟩, ⟨27206577129870757, 17⟩),
  (⟨24623466832465986, 10⟩, ⟨70402546742139116, 17⟩, ⟨0, 0⟩, ⟨24623466832465986, 10⟩, ⟨70402546742139116, 17⟩, ⟨0, 0⟩, ⟨24623466832465986, 10⟩, ⟨70402546742139116, 17⟩),
  (⟨24590264791317624, 10⟩, ⟨20323240897448969, 18⟩, ⟨0, 0⟩, ⟨24590264791317624, 10⟩, ⟨20323240897448969, 18⟩, ⟨0, 0⟩, ⟨24590264791317624, 10⟩, ⟨20323240897448969, 18⟩),
  (⟨24682649873238606, 10⟩, ⟨89618210835261425, 17⟩, ⟨0, 0⟩, ⟨24682649873238606, 10⟩, ⟨89618210835261425, 17⟩, ⟨0, 0⟩, ⟨24682649873238606, 10⟩, ⟨89618210835261425, 17⟩),
  (⟨24792534495999729, 10⟩, ⟨35545341290591037, 17⟩, ⟨0, 0⟩, ⟨24792534495999729, 10⟩, ⟨35545341290591037, 17⟩, ⟨0, 0⟩, ⟨24792534495999729, 10⟩, ⟨35545341290591037, 17⟩),
  (⟨24778467671943256, 10⟩, ⟨45013636123163003, 17⟩, ⟨0, 0⟩, ⟨24778467671943256, 10⟩, ⟨45013636123163003, 17⟩, ⟨0, 0⟩, ⟨24778467671943256, 10⟩, ⟨45013636123163003, 17⟩),
  (⟨24588627326795235, 10⟩, ⟨15427573864663047, 17⟩, ⟨0, 0⟩, ⟨24588627326795235, 10⟩, ⟨15427573864663047, 17⟩, ⟨0, 0⟩, ⟨24588627326795235, 10⟩, ⟨15427573864663047, 17⟩),
  (⟨24779461953689442, 10⟩, ⟨61906022791503246, 17⟩, ⟨0, 0⟩, ⟨24779461953689442, 10⟩, ⟨61906022791503246, 17⟩, ⟨0, 0⟩, ⟨24779461953689442, 10⟩, ⟨61906022791503246, 17⟩),
  (⟨24797944629944148, 10⟩, ⟨31818443088805792, 17⟩, ⟨0, 0⟩, ⟨24797944629944148, 10⟩, ⟨31818443088805792, 17⟩, ⟨0, 0⟩, ⟨24797944629944148, 10⟩, ⟨31818443088805792, 17⟩),
  (⟨24724055796027919, 10⟩, ⟨66275597353191584, 17⟩, ⟨0, 0⟩, ⟨24724055796027919, 10⟩, ⟨66275597353191584, 17⟩, ⟨0, 0⟩, ⟨24724055796027919, 10⟩, ⟨66275597353191584, 17⟩),
  (⟨24619484937474784, 10⟩, ⟨90132718104870990, 17⟩, ⟨0, 0⟩, ⟨24619484937474784, 10⟩, ⟨90132718104870990, 17⟩, ⟨0, 0⟩, ⟨24619484937474784, 10⟩, ⟨90132718104870990, 17⟩),
  (⟨24692360066833547, 10⟩, ⟨53940169019747175, 17⟩, ⟨0, 0⟩, ⟨24692360066833547, 10⟩, ⟨53940169019747175, 17⟩, ⟨0, 0⟩, ⟨24692360066833547, 10⟩, ⟨53940169019747175, 17⟩),
  (⟨24640737082004384, 10⟩, ⟨73476267119904870, 17⟩, ⟨0, 0⟩, ⟨24640737082004384, 10⟩, ⟨73476267119904870, 17⟩, ⟨0, 0⟩, ⟨24640737082004384, 10⟩, ⟨73476267119904870, 17⟩),
  (⟨24520386255976139, 10⟩, ⟨55981115511618940, 17⟩, ⟨0, 0⟩, ⟨24520386255976139, 10⟩, ⟨55981115511618940, 17⟩, ⟨0, 0⟩, ⟨24520386255976139, 10⟩, ⟨55981115511618940, 17⟩)]

/-- Entries 200 to 299. -/
def C2t_2 : List (Dec × Dec × Dec × Dec × Dec × Dec × Dec × Dec) := [
  (⟨24576341913980036, 10⟩, ⟨19884643366748267, 17⟩, ⟨0, 0⟩, ⟨24576341913980036, 10⟩, ⟨19884643366748267, 17⟩, ⟨0, 0⟩, ⟨24576341913980036, 10⟩, ⟨19884643366748267, 17⟩),
  (⟨24818978305532229, 10⟩, ⟨18504697425240524, 18⟩, ⟨0, 0⟩, ⟨24818978305532229, 10⟩, ⟨18504697425240524, 18⟩, ⟨0, 0⟩, ⟨24818978305532229, 10⟩, ⟨18504697425240524, 18⟩),
  (⟨24658004316189853, 10⟩, ⟨19464167071325456, 17⟩, ⟨0, 0⟩, ⟨24658004316189853, 10⟩, ⟨19464167071325456, 17⟩, ⟨0, 0⟩, ⟨24658004316189853, 10⟩, ⟨19464167071325456, 17⟩),
  (⟨24548579116367241, 10⟩, ⟨74757153181923741, 17⟩, ⟨0, 0⟩, ⟨24548579116367241, 10⟩, ⟨74757153181923741, 17⟩, ⟨0, 0⟩, ⟨24548579116367241, 10⟩, ⟨74757153181923741, 17⟩),
  (⟨24518212725552344, 10⟩, ⟨24425389171026446, 17⟩, ⟨0, 0⟩, ⟨24518212725552344, 10⟩, ⟨24425389171026446, 17⟩, ⟨0, 0⟩, ⟨24518212725552344, 10⟩, ⟨24425389171026446, 17⟩),
  (⟨24800002119986792, 10⟩, ⟨36104808757916396, 17⟩, ⟨0, 0⟩, ⟨24800002119986792, 10⟩, ⟨36104808757916396, 17⟩, ⟨0, 0⟩, ⟨24800002119986792, 10⟩, ⟨36104808757916396, 17⟩),
  (⟨24781405933883288, 10⟩, ⟨35117577571544445, 17⟩, ⟨0, 0⟩, ⟨24781405933883288, 10⟩, ⟨35117577571544445, 17⟩, ⟨0, 0⟩, ⟨24781405933883288, 10⟩, ⟨35117577571544445, 17⟩),
  (⟨24722082791240537, 10⟩, ⟨29231177929324992, 17⟩, ⟨0, 0⟩, ⟨24722082791240537, 10⟩, ⟨29231177929324992, 17⟩, ⟨0, 0⟩, ⟨24722082791240537, 10⟩, ⟨29231177929324992, 17⟩),
  (⟨24811929772823523, 10⟩, ⟨13438386550167458, 17⟩, ⟨0, 0⟩, ⟨24811929772823523, 10⟩, ⟨13438386550167458, 17⟩, ⟨0, 0⟩, ⟨24811929772823523, 10⟩, ⟨13438386550167458, 17⟩),
  (⟨24799777454071897, 10⟩, ⟨87335512614756861, 17⟩, ⟨0, 0⟩, ⟨24799777454071897, 10⟩, ⟨87335512614756861, 17⟩, ⟨0, 0⟩, ⟨24799777454071897, 10⟩, ⟨87335512614756861, 17⟩),
  (⟨24546842903813943, 10⟩, ⟨41399053220133475, 17⟩, ⟨0, 0⟩, ⟨24546842903813943, 10⟩, ⟨41399053220133475, 17⟩, ⟨0, 0⟩, ⟨24546842903813943, 10⟩, ⟨41399053220133475, 17⟩),
  (⟨24832536668150937, 10⟩, ⟨19126976321351175, 17⟩, ⟨0, 0⟩, ⟨24832536668150937, 10⟩, ⟨19126976321351175, 17⟩, ⟨0, 0⟩, ⟨24832536668150937, 10⟩, ⟨19126976321351175, 17⟩),
  (⟨24563277389942450, 10⟩, ⟨27305530208785911, 17⟩, ⟨0, 0⟩, ⟨24563277389942450, 10⟩, ⟨27305530208785911, 17⟩, ⟨0, 0⟩, ⟨24563277389942450, 10⟩, ⟨27305530208785911, 17⟩),
  (⟨24621000208511963, 10⟩, ⟨42945181537668786, 17⟩, ⟨0, 0⟩, ⟨24621000208511963, 10⟩, ⟨42945181537668786, 17⟩, ⟨0, 0⟩, ⟨24621000208511963, 10⟩, ⟨42945181537668786, 17⟩),
  (⟨24565620414800006, 10⟩, ⟨92847098620554258, 17⟩, ⟨0, 0⟩, ⟨24565620414800006, 10⟩, ⟨92847098620554258, 17⟩, ⟨0, 0⟩, ⟨24565620414800006, 10⟩, ⟨92847098620554258, 17⟩),
  (⟨24645250490575908, 10⟩, ⟨32558342776608717, 17⟩, ⟨0, 0⟩, ⟨24645250490575908, 10⟩, ⟨32558342776608717, 17⟩, ⟨0, 0⟩, ⟨24645250490575908, 10⟩, ⟨32558342776608717, 17⟩),
  (⟨24823330578764454, 10⟩, ⟨47470104824159653, 17⟩, ⟨0, 0⟩, ⟨24823330578764454, 10⟩, ⟨47470104824159653, 17⟩, ⟨0, 0⟩, ⟨24823330578764454, 10⟩, ⟨47470104824159653, 17⟩),
  (⟨24865861812396310, 10⟩, ⟨50824394010352547, 18⟩, ⟨0, 0⟩, ⟨24865861812396310, 10⟩, ⟨50824394010352547, 18⟩, ⟨0, 0⟩, ⟨24865861812396310, 10⟩, ⟨50824394010352547, 18⟩),
  (⟨24728106022663959, 10⟩, ⟨70323982296743603, 17⟩, ⟨0, 0⟩, ⟨24728106022663959, 10⟩, ⟨70323982296743603, 17⟩, ⟨0, 0⟩, ⟨24728106022663959, 10⟩, ⟨70323982296743603, 17⟩),
  (⟨24607913719876194, 10⟩, ⟨17049344319212700, 17⟩, ⟨0, 0⟩, ⟨24607913719876194, 10⟩, ⟨17049344319212700, 17⟩, ⟨0, 0⟩, ⟨24607913719876194, 10⟩, ⟨17049344319212700, 17⟩),
  (⟨24769046055587423, 10⟩, ⟨89526357139086188, 17⟩, ⟨0, 0⟩, ⟨24769046055587423, 10⟩, ⟨89526357139086188, 17⟩, ⟨0, 0⟩, ⟨24769046055587423, 10⟩, ⟨89526357139086188, 17⟩),
  (⟨24612542159586386, 10⟩, ⟨44563250215194838, 17⟩, ⟨0, 0⟩, ⟨24612542159586386, 10⟩, ⟨44563250215194838, 17⟩, ⟨0, 0⟩, ⟨24612542159586386, 10⟩, ⟨44563250215194838, 17⟩),
  (⟨24685678024545228, 10⟩, ⟨30294056561312677, 17⟩, ⟨0, 0⟩, ⟨24685678024545228, 10⟩, ⟨30294056561312677, 17⟩, ⟨0, 0⟩, ⟨24685678024545228, 10⟩, ⟨30294056561312677, 17⟩),
  (⟨24581500541963466, 10⟩, ⟨30234545317261907, 17⟩, ⟨0, 0⟩, ⟨24581500541963466, 10⟩, ⟨30234545317261907, 17⟩, ⟨0, 0⟩, ⟨24581500541963466, 10⟩, ⟨30234545317261907, 17⟩),
  (⟨24711978936890657, 10⟩, ⟨16825424771805597, 18⟩, ⟨0, 0⟩, ⟨24711978936890657, 10⟩, ⟨16825424771805597, 18⟩, ⟨0, 0⟩, ⟨24711978936890657, 10⟩, ⟨16825424771805597, 18⟩),
  (⟨24716582664337931, 10⟩, ⟨51327541974977808, 17⟩, ⟨0, 0⟩, ⟨24716582664337931, 10⟩, ⟨51327541974977808, 17⟩, ⟨0, 0⟩, ⟨24716582664337931, 10⟩, ⟨51327541974977808, 17⟩),
  (⟨24659738451572158, 10⟩, ⟨14573264760426974, 17⟩, ⟨0, 0⟩, ⟨24659738451572158, 10⟩, ⟨14573264760426974, 17⟩, ⟨0, 0⟩, ⟨24659738451572158, 10⟩, ⟨14573264760426974, 17⟩),
  (⟨24582775395383318, 10⟩, ⟨58068007478184280, 17⟩, ⟨0, 0⟩, ⟨24582775395383318, 10⟩, ⟨58068007478184280, 17⟩, ⟨0, 0⟩, ⟨24582775395383318, 10⟩, ⟨58068007478184280, 17⟩),
  (⟨24571243299318678, 10⟩, ⟨19128607556994681, 17⟩, ⟨0, 0⟩, ⟨24571243299318678, 10⟩, ⟨19128607556994681, 17⟩, ⟨0, 0⟩, ⟨24571243299318678, 10⟩, ⟨19128607556994681, 17⟩),
  (⟨24550865553540490, 10⟩, ⟨64861300378235409, 17⟩, ⟨0, 0⟩, ⟨24550865553540490, 10⟩, ⟨64861300378235409, 17⟩, ⟨0, 0⟩, ⟨24550865553540490, 10⟩, ⟨64861300378235409, 17⟩),
  (⟨24551450376163246, 10⟩, ⟨62108682317841468, 17⟩, ⟨0, 0⟩, ⟨24551450376163246, 10⟩, ⟨62108682317841468, 17⟩, ⟨0, 0⟩, ⟨24551450376163246, 10⟩, ⟨62108682317841468, 17⟩),
  (⟨24631138656540853, 10⟩, ⟨79718119426795397, 17⟩, ⟨0, 0⟩, ⟨24631138656540853, 10⟩, ⟨79718119426795397, 17⟩, ⟨0, 0⟩, ⟨24631138656540853, 10⟩, ⟨79718119426795397, 17⟩),
  (⟨24736749753634818, 10⟩, ⟨84963124506595833, 17⟩, ⟨0, 0⟩, ⟨24736749753634818, 10⟩, ⟨84963124506595833, 17⟩, ⟨0, 0⟩, ⟨24736749753634818, 10⟩, ⟨84963124506595833, 17⟩),
  (⟨24876696374780475, 10⟩, ⟨79314604613525441, 17⟩, ⟨0, 0⟩, ⟨24876696374780475, 10⟩, ⟨79314604613525441, 17⟩, ⟨0, 0⟩, ⟨24876696374780475, 10⟩, ⟨79314604613525441, 17⟩),
  (⟨24780803849631115, 10⟩, ⟨97502181835113133, 17⟩, ⟨0, 0⟩, ⟨24780803849631115, 10⟩, ⟨97502181835113133, 17⟩, ⟨0, 0⟩, ⟨24780803849631115, 10⟩, ⟨97502181835113133, 17⟩),
  (⟨24768166024076217, 10⟩, ⟨36500610556506141, 17⟩, ⟨0, 0⟩, ⟨24768166024076217, 10⟩, ⟨36500610556506141, 17⟩, ⟨0, 0⟩, ⟨24768166024076217, 10⟩, ⟨36500610556506141, 17⟩),
  (⟨24771351549701942, 10⟩, ⟨83641584314056339, 17⟩, ⟨0, 0⟩, ⟨24771351549701942, 10⟩, ⟨83641584314056339, 17⟩, ⟨0, 0⟩, ⟨24771351549701942, 10⟩, ⟨83641584314056339, 17⟩),
  (⟨24875889851984424, 10⟩, ⟨18019817893987244, 17⟩, ⟨0, 0⟩, ⟨24875889851984424, 10⟩, ⟨18019817893987244, 17⟩, ⟨0, 0⟩, ⟨24875889851984424, 10⟩, ⟨18019817893987244, 17⟩),
  (⟨24722021319931555, 10⟩, ⟨87621481649821364, 17⟩, ⟨0, 0⟩, ⟨24722021319931555, 10⟩, ⟨87621481649821364, 17⟩, ⟨0, 0⟩, ⟨24722021319931555, 10⟩, ⟨87621481649821364, 17⟩),
  (⟨24617513182232711, 10⟩, ⟨28077372024689629, 18⟩, ⟨0, 0⟩, ⟨24617513182232711, 10⟩, ⟨28077372024689629, 18⟩, ⟨0, 0⟩, ⟨24617513182232711, 10⟩, ⟨28077372024689629, 18⟩),
  (⟨24516792235593665, 10⟩, ⟨64788733111060115, 17⟩, ⟨0, 0⟩, ⟨24516792235593665, 10⟩, ⟨64788733111060115, 17⟩, ⟨0, 0⟩, ⟨24516792235593665, 10⟩, ⟨64788733111060115, 17⟩),
  (⟨24669427298546769, 10⟩, ⟨82603913579690758, 17⟩, ⟨0, 0⟩, ⟨24669427298546769, 10⟩, ⟨82603913579690758, 17⟩, ⟨0, 0⟩, ⟨24669427298546769, 10⟩, ⟨82603913579690758, 17⟩),
  (⟨24557300541740404, 10⟩, ⟨10929066908448537, 17⟩, ⟨0, 0⟩, ⟨24557300541740404, 10⟩, ⟨10929066908448537, 17⟩, ⟨0, 0⟩, ⟨24557300541740404, 10⟩, ⟨10929066908448537, 17⟩),
  (⟨24839110807319037, 10⟩, ⟨98685304769309923, 17⟩, ⟨0, 0⟩, ⟨24839110807319037, 10⟩, ⟨98685304769309923, 17⟩, ⟨0, 0⟩, ⟨24839110807319037, 10⟩, ⟨98685304769309923, 17⟩),
  (⟨24849745789930313, 10⟩, ⟨80314974982939047, 18⟩, ⟨0, 0⟩, ⟨24849745789930313, 10⟩, ⟨80314974982939047, 18⟩, ⟨0, 0⟩, ⟨24849745789930313, 10⟩, ⟨80314974982939047, 18⟩),
  (⟨24816778409412596, 10⟩, ⟨87149006690499842, 17⟩, ⟨0, 0⟩, ⟨24816778409412596, 10⟩, ⟨87149006690499842, 17⟩, ⟨0, 0⟩, ⟨24816778409412596, 10⟩, ⟨87149006690499842, 17⟩),
  (⟨24572999601011453, 10⟩, ⟨17196002776296848, 17⟩, ⟨0, 0⟩, ⟨24572999601011453, 10⟩, ⟨17196002776296848, 17⟩, ⟨0, 0⟩, ⟨24572999601011453, 10⟩, ⟨17196002776296848, 17⟩),
  (⟨24598133169695353, 10⟩, ⟨72419049171108296, 17⟩, ⟨0, 0⟩, ⟨24598133169695353, 10⟩, ⟨72419049171108296, 17⟩, ⟨0, 0⟩, ⟨24598133169695353, 10⟩, ⟨72419049171108296, 17⟩),
  (⟨24798265029314910, 10⟩, ⟨75125741738963903, 17⟩, ⟨0, 0⟩, ⟨24798265029314910, 10⟩, ⟨75125741738963903, 17⟩, ⟨0, 0⟩, ⟨24798265029314910, 10⟩, ⟨75125741738963903, 17⟩),
  (⟨24825173410106003, 10⟩, ⟨43613316428799476, 17⟩, ⟨0, 0⟩, ⟨24825173410106003, 10⟩, ⟨43613316428799476, 17⟩, ⟨0, 0⟩, ⟨24825173410106003, 10⟩, ⟨43613316428799476, 17⟩),
  (⟨24670381480625151, 10⟩, ⟨67423872036356414, 17⟩, ⟨0, 0⟩, ⟨24670381480625151, 10⟩, ⟨67423872036356414, 17⟩, ⟨0, 0⟩, ⟨24670381480625151, 10⟩, ⟨67423872036356414, 17⟩),
  (⟨24572411234647143, 10⟩, ⟨44489714072408415, 17⟩, ⟨0, 0⟩, ⟨24572411234647143, 10⟩, ⟨44489714072408415, 17⟩, ⟨0, 0⟩, ⟨24572411234647143, 10⟩, ⟨44489714072408415, 17⟩),
  (⟨24726003183705579, 10⟩, ⟨82449447036989532, 18⟩, ⟨0, 0⟩, ⟨24726003183705579, 10⟩, ⟨82449447036989532, 18⟩, ⟨0, 0⟩, ⟨24726003183705579, 10⟩, ⟨82449447036989532, 18⟩),
  (⟨24724252573445044, 10⟩, ⟨45836548188506210, 17⟩, ⟨0, 0⟩, ⟨24724252573445044, 10⟩, ⟨45836548188506210, 17⟩, ⟨0, 0⟩, ⟨24724252573445044, 10⟩, ⟨45836548188506210, 17⟩),
  (⟨24740286211975543, 10⟩, ⟨53575288119851860, 17⟩, ⟨0, 0⟩, ⟨24740286211975543, 10⟩, ⟨53575288119851860, 17⟩, ⟨0, 0⟩, ⟨24740286211975543, 10⟩, ⟨53575288119851860, 17⟩),
  (⟨24529164382853191, 10⟩, ⟨78004149850216198, 18⟩, ⟨0, 0⟩, ⟨24529164382853191, 10⟩, ⟨78004149850216198, 18⟩, ⟨0, 0⟩, ⟨24529164382853191, 10⟩, ⟨78004149850216198, 18⟩),
  (⟨24550648028356559, 10⟩, ⟨85979292132219554, 18⟩, ⟨0, 0⟩, ⟨24550648028356559, 10⟩, ⟨85979292132219554, 18⟩, ⟨0, 0⟩, ⟨24550648028356559, 10⟩, ⟨85979292132219554, 18⟩),
  (⟨24837976831191573, 10⟩, ⟨87960750313141167, 17⟩, ⟨0, 0⟩, ⟨24837976831191573, 10⟩, ⟨87960750313141167, 17⟩, ⟨0, 0⟩, ⟨24837976831191573, 10⟩, ⟨87960750313141167, 17⟩),
  (⟨24619453973503252, 10⟩, ⟨18035466879029460, 19⟩, ⟨0, 0⟩, ⟨24619453973503252, 10⟩, ⟨18035466879029460, 19⟩, ⟨0, 0⟩, ⟨24619453973503252, 10⟩, ⟨18035466879029460, 19⟩),
  (⟨24778570176408044, 10⟩, ⟨84673946082869767, 17⟩, ⟨0, 0⟩, ⟨24778570176408044, 10⟩, ⟨84673946082869767, 17⟩, ⟨0, 0⟩, ⟨24778570176408044, 10⟩, ⟨84673946082869767, 17⟩),
  (⟨24821789831123576, 10⟩, ⟨35610400243218943, 17⟩, ⟨0, 0⟩, ⟨24821789831123576, 10⟩, ⟨35610400243218943, 17⟩, ⟨0, 0⟩, ⟨24821789831123576, 10⟩, ⟨35610400243218943, 17⟩),
  (⟨24796235349973789, 10⟩, ⟨54095866205679000, 17⟩, ⟨0, 0⟩, ⟨24796235349973789, 10⟩, ⟨54095866205679000, 17⟩, ⟨0, 0⟩, ⟨24796235349973789, 10⟩, ⟨54095866205679000, 17⟩),
  (⟨24559434966864479, 10⟩, ⟨37964295104557944, 17⟩, ⟨0, 0⟩, ⟨24559434966864479, 10⟩, ⟨37964295104557944, 17⟩, ⟨0, 0⟩, ⟨24559434966864479, 10⟩, ⟨37964295104557944, 17⟩),
  (⟨24715918887773338, 10⟩, ⟨69464900212759195, 18⟩, ⟨0, 0⟩, ⟨24715918887773338, 10⟩, ⟨69464900212759195, 18⟩, ⟨0, 0⟩, ⟨24715918887773338, 10⟩, ⟨69464900212759195, 18⟩),
  (⟨24521914509279453, 10⟩, ⟨38345651209352616, 17⟩, ⟨0, 0⟩, ⟨24521914509279453, 10⟩, ⟨38345651209352616, 17⟩, ⟨0, 0⟩, ⟨24521914509279453, 10⟩, ⟨38345651209352616, 17⟩),
  (⟨24751675540373591, 10⟩, ⟨66347883601806956, 17⟩, ⟨0, 0⟩, ⟨24751675540373591, 10⟩, ⟨66347883601806956, 17⟩, ⟨0, 0⟩, ⟨24751675540373591, 10⟩, ⟨66347883601806956, 17⟩),
  (⟨24696218919215109, 10⟩, ⟨32042897471586196, 17⟩, ⟨0, 0⟩, ⟨24696218919215109, 10⟩, ⟨32042897471586196, 17⟩, ⟨0, 0⟩, ⟨24696218919215109, 10⟩, ⟨32042897471586196, 17⟩),
  (⟨24721014219553187, 10⟩, ⟨72672523965942926, 18⟩, ⟨0, 0⟩, ⟨24721014219553187, 10⟩, ⟨72672523965942926, 18⟩, ⟨0, 0⟩, ⟨24721014219553187, 10⟩, ⟨72672523965942926, 18⟩),
  (⟨24806547738090670, 10⟩, ⟨66891711647579755, 17⟩, ⟨0, 0⟩, ⟨24806547738090670, 10⟩, ⟨66891711647579755, 17⟩, ⟨0, 0⟩, ⟨24806547738090670, 10⟩, ⟨66891711647579755, 17⟩),
  (⟨24670598181356625, 10⟩, ⟨99542074170861494, 17⟩, ⟨0, 0⟩, ⟨24670598181356625, 10⟩, ⟨99542074170861494, 17⟩, ⟨0, 0⟩, ⟨24670598181356625, 10⟩, ⟨99542074170861494, 17⟩),
  (⟨24749369338906785, 10⟩, ⟨26757533077657825, 18⟩, ⟨0, 0⟩, ⟨24749369338906785, 10⟩, ⟨26757533077657825, 18⟩, ⟨0, 0⟩, ⟨24749369338906785, 10⟩, ⟨26757533077657825, 18⟩),
  (⟨24757889652271830, 10⟩, ⟨55459411110691303, 18⟩, ⟨0, 0⟩, ⟨24757889652271830, 10⟩, ⟨55459411110691303, 18⟩, ⟨0, 0⟩, ⟨24757889652271830, 10⟩, ⟨55459411110691303, 18⟩),
  (⟨24666167842271328, 10⟩, ⟨90170672580064026, 17⟩, ⟨0, 0⟩, ⟨24666167842271328, 10⟩, ⟨90170672580064026, 17⟩, ⟨0, 0⟩, ⟨24666167842271328, 10⟩, ⟨90170672580064026, 17⟩),
  (⟨24703273646054026, 10⟩, ⟨95247598711544423, 18⟩, ⟨0, 0⟩, ⟨24703273646054026, 10⟩, ⟨95247598711544423, 18⟩, ⟨0, 0⟩, ⟨24703273646054026, 10⟩, ⟨95247598711544423, 18⟩),
  (⟨24839749785319194, 10⟩, ⟨29510724305820368, 17⟩, ⟨0, 0⟩, ⟨24839749785319194, 10⟩, ⟨29510724305820368, 17⟩, ⟨0, 0⟩, ⟨24839749785319194, 10⟩, ⟨29510724305820368, 17⟩),
  (⟨24761077585656526, 10⟩, ⟨57857190207460407, 17⟩, ⟨0, 0⟩, ⟨24761077585656526, 10⟩, ⟨57857190207460407, 17⟩, ⟨0, 0⟩, ⟨24761077585656526, 10⟩, ⟨57857190207460407, 17⟩),
  (⟨24868178813223965, 10⟩, ⟨26477856222224894, 17⟩, ⟨0, 0⟩, ⟨24868178813223965, 10⟩, ⟨26477856222224894, 17⟩, ⟨0, 0⟩, ⟨24868178813223965, 10⟩, ⟨26477856222224894, 17⟩),
  (⟨24845669637673930, 10⟩, ⟨52127299502145630, 17⟩, ⟨0, 0⟩, ⟨24845669637673930, 10⟩, ⟨52127299502145630, 17⟩, ⟨0, 0⟩, ⟨24845669637673930, 10⟩, ⟨52127299502145630, 17⟩),
  (⟨24685022403801670, 10⟩, ⟨44999090773365291, 17⟩, ⟨0, 0⟩, ⟨24685022403801670, 10⟩, ⟨44999090773365291, 17⟩, ⟨0, 0⟩, ⟨24685022403801670, 10⟩, ⟨44999090773365291, 17⟩),
  (⟨24698551011677980, 10⟩, ⟨64466491202034837, 17⟩, ⟨0, 0⟩, ⟨24698551011677980, 10⟩, ⟨64466491202034837, 17⟩, ⟨0, 0⟩, ⟨24698551011677980, 10⟩, ⟨64466491202034837, 17⟩),
  (⟨24585710271361088, 10⟩, ⟨52181272401278511, 17⟩, ⟨0, 0⟩, ⟨24585710271361088, 10⟩, ⟨52181272401278511, 17⟩, ⟨0, 0⟩, ⟨24585710271361088, 10⟩, ⟨52181272401278511, 17⟩),
  (⟨24779274601583635, 10⟩, ⟨29108514884477954, 17⟩, ⟨0, 0⟩, ⟨24779274601583635, 10⟩, ⟨29108514884477954, 17⟩, ⟨0, 0⟩, ⟨24779274601583635, 10⟩, ⟨29108514884477954, 17⟩),
  (⟨24533726388749960, 10⟩, ⟨49878557503818899, 17⟩, ⟨0, 0⟩, ⟨24533726388749960, 10⟩, ⟨49878557503818899, 17⟩, ⟨0, 0⟩, ⟨24533726388749960, 10⟩, ⟨49878557503818899, 17⟩),
  (⟨24837886665107822, 10⟩, ⟨28019940104022756, 17⟩, ⟨0, 0⟩, ⟨24837886665107822, 10⟩, ⟨28019940104022756, 17⟩, ⟨0, 0⟩, ⟨24837886665107822, 10⟩, ⟨28019940104022756, 17⟩),
  (⟨24818225672622346, 10⟩, ⟨10130298711271746, 17⟩, ⟨0, 0⟩, ⟨24818225672622346, 10⟩, ⟨10130298711271746, 17⟩, ⟨0, 0⟩, ⟨24818225672622346, 10⟩, ⟨10130298711271746, 17⟩),
  (⟨24831636323008412, 10⟩, ⟨18684902351092025, 17⟩, ⟨0, 0⟩, ⟨24831636323008412, 10⟩, ⟨18684902351092025, 17⟩, ⟨0, 0⟩, ⟨24831636323008412, 10⟩, ⟨18684902351092025, 17⟩),
  (⟨24713104260594291, 10⟩, ⟨96158249236002147, 17⟩, ⟨0, 0⟩, ⟨24713104260594291, 10⟩, ⟨96158249236002147, 17⟩, ⟨0, 0⟩, ⟨24713104260594291, 10⟩, ⟨96158249236002147, 17⟩),
  (⟨24640432914438513, 10⟩, ⟨46363920230655253, 17⟩, ⟨0, 0⟩, ⟨24640432914438513, 10⟩, ⟨46363920230655253, 17⟩, ⟨0, 0⟩, ⟨24640432914438513, 10⟩, ⟨46363920230655253, 17⟩),
  (⟨24556474082153738, 10⟩, ⟨35538270029424401, 17⟩, ⟨0, 0⟩, ⟨24556474082153738, 10⟩, ⟨35538270029424401, 17⟩, ⟨0, 0⟩, ⟨24556474082153738, 10⟩, ⟨35538270029424401, 17⟩),
  (⟨24624112061946257, 10⟩, ⟨19728564294167761, 17⟩, ⟨0, 0⟩, ⟨24624112061946257, 10⟩, ⟨19728564294167761, 17⟩, ⟨0, 0⟩, ⟨24624112061946257, 10⟩, ⟨19728564294167761, 17⟩),
  (⟨24767763278041831, 10⟩, ⟨71335336812641514, 17⟩, ⟨0, 0⟩, ⟨24767763278041831, 10⟩, ⟨71335336812641514, 17⟩, ⟨0, 0⟩, ⟨24767763278041831, 10⟩, ⟨71335336812641514, 17⟩),
  (⟨24691433633765909, 10⟩, ⟨60519016643117796, 17⟩, ⟨0, 0⟩, ⟨24691433633765909, 10⟩, ⟨60519016643117796, 17⟩, ⟨0, 0⟩, ⟨24691433633765909, 10⟩, ⟨60519016643117796, 17⟩),
  (⟨24778550127711822, 10⟩, ⟨78323385331217066, 17⟩, ⟨0, 0⟩, ⟨24778550127711822, 10⟩, ⟨78323385331217066, 17⟩, ⟨0, 0⟩, ⟨24778550127711822, 10⟩, ⟨78323385331217066, 17⟩),
  (⟨24747280302670463, 10⟩, ⟨95583250039789958, 18⟩, ⟨0, 0⟩, ⟨24747280302670463, 10⟩, ⟨95583250039789958, 18⟩, ⟨0, 0⟩, ⟨24747280302670463, 10⟩, ⟨95583250039789958, 18⟩),
  (⟨24716177771298825, 10⟩, ⟨92661804781616663, 17⟩, ⟨0, 0⟩, ⟨24716177771298825, 10⟩, ⟨92661804781616663, 17⟩, ⟨0, 0⟩, ⟨24716177771298825, 10⟩, ⟨92661804781616663, 17⟩),
  (⟨24714912098555653, 10⟩, ⟨13287161388818369, 17⟩, ⟨0, 0⟩, ⟨24714912098555653, 10⟩, ⟨13287161388818369, 17⟩, ⟨0, 0⟩, ⟨24714912098555653, 10⟩, ⟨13287161388818369, 17⟩),
  (⟨24752699377136286, 10⟩, ⟨32060549083781298, 17⟩, ⟨0, 0⟩, ⟨24752699377136286, 10⟩, ⟨32060549083781298, 17⟩, ⟨0, 0⟩, ⟨24752699377136286, 10⟩, ⟨32060549083781298, 17⟩),
  (⟨24845675194338537, 10⟩, ⟨42676406564889136, 17⟩, ⟨0, 0⟩, ⟨24845675194338537, 10⟩, ⟨42676406564889136, 17⟩, ⟨0, 0⟩, ⟨24845675194338537, 10⟩, ⟨42676406564889136, 17⟩),
  (⟨24579320364391133, 10⟩, ⟨83170016716874628, 17⟩, ⟨0, 0⟩, ⟨24579320364391133, 10⟩, ⟨83170016716874628, 17⟩, ⟨0, 0⟩, ⟨24579320364391133, 10⟩, ⟨83170016716874628, 17⟩),
  (⟨24801487169196079, 10⟩, ⟨73638520641346572, 18⟩, ⟨0, 0⟩, ⟨24801487169196079, 10⟩, ⟨73638520641346572, 18⟩, ⟨0, 0⟩, ⟨24801487169196079, 10⟩, ⟨73638520641346572, 18⟩)]

/-- Entries 300 to 399. -/
def C2t_3 : List (Dec × Dec × Dec × Dec × Dec × Dec × Dec × Dec) := [
  (⟨24676070898554381, 10⟩, ⟨59434035439791477, 17⟩, ⟨0, 0⟩, ⟨24676070898554381, 10⟩, ⟨59434035439791477, 17⟩, ⟨0, 0⟩, ⟨24676070898554381, 10⟩, ⟨59434035439791477, 17⟩),
  (⟨24797780372750345, 10⟩, ⟨15072215535913647, 17⟩, ⟨0, 0⟩, ⟨24797780372750345, 10⟩, ⟨15072215535913647, 17⟩, ⟨0, 0⟩, ⟨24797780372750345, 10⟩, ⟨15072215535913647, 17⟩),
  (⟨24582677047812357, 10⟩, ⟨13899837165346374, 18⟩, ⟨0, 0⟩, ⟨24582677047812357, 10⟩, ⟨13899837165346374, 18⟩, ⟨0, 0⟩, ⟨24582677047812357, 10⟩, ⟨13899837165346374, 18⟩),
  (⟨24580314329722384, 10⟩, ⟨32694126577415406, 17⟩, ⟨0, 0⟩, ⟨24580314329722384, 10⟩, ⟨32694126577415406, 17⟩, ⟨0, 0⟩, ⟨24580314329722384, 10⟩, ⟨32694126577415406, 17⟩),
  (⟨24796765517980554, 10⟩, ⟨64522829712427976, 17⟩, ⟨0, 0⟩, ⟨24796765517980554, 10⟩, ⟨64522829712427976, 17⟩, ⟨0, 0⟩, ⟨24796765517980554, 10⟩, ⟨64522829712427976, 17⟩),
  (⟨24635225831199852, 10⟩, ⟨24638623628746359, 17⟩, ⟨0, 0⟩, ⟨24635225831199852, 10⟩, ⟨24638623628746359, 17⟩, ⟨0, 0⟩, ⟨24635225831199852, 10⟩, ⟨24638623628746359, 17⟩),
  (⟨24829247287776251, 10⟩, ⟨86053739615246405, 17⟩, ⟨0, 0⟩, ⟨24829247287776251, 10⟩, ⟨86053739615246405, 17⟩, ⟨0, 0⟩, ⟨24829247287776251, 10⟩, ⟨86053739615246405, 17⟩),
  (⟨24663284089033706, 10⟩, ⟨60163080332062557, 17⟩, ⟨0, 0⟩, ⟨24663284089033706, 10⟩, ⟨60163080332062557, 17⟩, ⟨0, 0⟩, ⟨24663284089033706, 10⟩, ⟨60163080332062557, 17⟩),
  (⟨24619750046782629, 10⟩, ⟨97756358279601641, 17⟩, ⟨0, 0⟩, ⟨24619750046782629, 10⟩, ⟨97756358279601641, 17⟩, ⟨0, 0⟩, ⟨24619750046782629, 10⟩, ⟨97756358279601641, 17⟩),
  (⟨24582748984598797, 10⟩, ⟨47207345322723238, 17⟩, ⟨0, 0⟩, ⟨24582748984598797, 10⟩, ⟨47207345322723238, 17⟩, ⟨0, 0⟩, ⟨24582748984598797, 10⟩, ⟨47207345322723238, 17⟩),
  (⟨24653339017054019, 10⟩, ⟨20146606965798453, 17⟩, ⟨0, 0⟩, ⟨24653339017054019, 10⟩, ⟨20146606965798453, 17⟩, ⟨0, 0⟩, ⟨24653339017054019, 10⟩, ⟨20146606965798453, 17⟩),
  (⟨24699734054544447, 10⟩, ⟨76858629583975835, 17⟩, ⟨0, 0⟩, ⟨24699734054544447, 10⟩, ⟨76858629583975835, 17⟩, ⟨0, 0⟩, ⟨24699734054544447, 10⟩, ⟨76858629583975835, 17⟩),
  (⟨24595725442626337, 10⟩, ⟨55517939707389863, 17⟩, ⟨0, 0⟩, ⟨24595725442626337, 10⟩, ⟨55517939707389863, 17⟩, ⟨0, 0⟩, ⟨24595725442626337, 10⟩, ⟨55517939707389863, 17⟩),
  (⟨24781121603516196, 10⟩, ⟨28183320009651591, 17⟩, ⟨0, 0⟩, ⟨24781121603516196, 10⟩, ⟨28183320009651591, 17⟩, ⟨0, 0⟩, ⟨24781121603516196, 10⟩, ⟨28183320009651591, 17⟩),
  (⟨24783804626974841, 10⟩, ⟨17022619349175938, 17⟩, ⟨0, 0⟩, ⟨24783804626974841, 10⟩, ⟨17022619349175938, 17⟩, ⟨0, 0⟩, ⟨24783804626974841, 10⟩, ⟨17022619349175938, 17⟩),
  (⟨24663088780107428, 10⟩, ⟨74009950652301570, 17⟩, ⟨0, 0⟩, ⟨24663088780107428, 10⟩, ⟨74009950652301570, 17⟩, ⟨0, 0⟩, ⟨24663088780107428, 10⟩, ⟨74009950652301570, 17⟩),
  (⟨24639253429044737, 10⟩, ⟨38685098853593280, 17⟩, ⟨0, 0⟩, ⟨24639253429044737, 10⟩, ⟨38685098853593280, 17⟩, ⟨0, 0⟩, ⟨24639253429044737, 10⟩, ⟨38685098853593280, 17⟩),
  (⟨24790173293093229, 10⟩, ⟨39957813517332452, 17⟩, ⟨0, 0⟩, ⟨24790173293093229, 10⟩, ⟨39957813517332452, 17⟩, ⟨0, 0⟩, ⟨24790173293093229, 10⟩, ⟨39957813517332452, 17⟩),
  (⟨24588977808014778, 10⟩, ⟨67544908815358651, 17⟩, ⟨0, 0⟩, ⟨24588977808014778, 10⟩, ⟨67544908815358651, 17⟩, ⟨0, 0⟩, ⟨24588977808014778, 10⟩, ⟨67544908815358651, 17⟩),
  (⟨24582110114156432, 10⟩, ⟨57760527551328000, 17⟩, ⟨0, 0⟩, ⟨24582110114156432, 10⟩, ⟨57760527551328000, 17⟩, ⟨0, 0⟩, ⟨24582110114156432, 10⟩, ⟨57760527551328000, 17⟩),
  (⟨24827013533396688, 10⟩, ⟨47067572315495665, 17⟩, ⟨0, 0⟩, ⟨24827013533396688, 10⟩, ⟨47067572315495665, 17⟩, ⟨0, 0⟩, ⟨24827013533396688, 10⟩, ⟨47067572315495665, 17⟩),
  (⟨24675878138011983, 10⟩, ⟨46458690026284610, 17⟩, ⟨0, 0⟩, ⟨24675878138011983, 10⟩, ⟨46458690026284610, 17⟩, ⟨0, 0⟩, ⟨24675878138011983, 10⟩, ⟨46458690026284610, 17⟩),
  (⟨24828028361604367, 10⟩, ⟨90962537753452233, 17⟩, ⟨0, 0⟩, ⟨24828028361604367, 10⟩, ⟨90962537753452233, 17⟩, ⟨0, 0⟩, ⟨24828028361604367, 10⟩, ⟨90962537753452233, 17⟩),
  (⟨24729898707475676, 10⟩, ⟨63130528582645984, 17⟩, ⟨0, 0⟩, ⟨24729898707475676, 10⟩, ⟨63130528582645984, 17⟩, ⟨0, 0⟩, ⟨24729898707475676, 10⟩, ⟨63130528582645984, 17⟩),
  (⟨24528288437132859, 10⟩, ⟨59502091759853626, 17⟩, ⟨0, 0⟩, ⟨24528288437132859, 10⟩, ⟨59502091759853626, 17⟩, ⟨0, 0⟩, ⟨24528288437132859, 10⟩, ⟨59502091759853626, 17⟩),
  (⟨24702844233252220, 10⟩, ⟨46059995200339887, 17⟩, ⟨0, 0⟩, ⟨24702844233252220, 10⟩, ⟨46059995200339887, 17⟩, ⟨0, 0⟩, ⟨24702844233252220, 10⟩, ⟨46059995200339887, 17⟩),
  (⟨24587214911048785, 10⟩, ⟨97502619944905977, 17⟩, ⟨0, 0⟩, ⟨24587214911048785, 10⟩, ⟨97502619944905977, 17⟩, ⟨0, 0⟩, ⟨24587214911048785, 10⟩, ⟨97502619944905977, 17⟩),
  (⟨24804639826977402, 10⟩, ⟨76864162029809213, 17⟩, ⟨0, 0⟩, ⟨24804639826977402, 10⟩, ⟨76864162029809213, 17⟩, ⟨0, 0⟩, ⟨24804639826977402, 10⟩, ⟨76864162029809213, 17⟩),
  (⟨24801362834264524, 10⟩, ⟨12541469272210781, 17⟩, ⟨0, 0⟩, ⟨24801362834264524, 10⟩, ⟨12541469272210781, 17⟩, ⟨0, 0⟩, ⟨24801362834264524, 10⟩, ⟨12541469272210781, 17⟩),
  (⟨24821186926957131, 10⟩, ⟨68478558401584722, 17⟩, ⟨0, 0⟩, ⟨24821186926957131, 10⟩, ⟨68478558401584722, 17⟩, ⟨0, 0⟩, ⟨24821186926957131, 10⟩, ⟨68478558401584722, 17⟩),
  (⟨24741506730831102, 10⟩, ⟨25252887808093549, 17⟩, ⟨0, 0⟩, ⟨24741506730831102, 10⟩, ⟨25252887808093549, 17⟩, ⟨0, 0⟩, ⟨24741506730831102, 10⟩, ⟨25252887808093549, 17⟩),
  (⟨24671850937752430, 10⟩, ⟨25629433883999631, 18⟩, ⟨0, 0⟩, ⟨24671850937752430, 10⟩, ⟨25629433883999631, 18⟩, ⟨0, 0⟩, ⟨24671850937752430, 10⟩, ⟨25629433883999631, 18⟩),
  (⟨24766690396151878, 10⟩, ⟨89740712058258520, 17⟩, ⟨0, 0⟩, ⟨24766690396151878, 10⟩, ⟨89740712058258520, 17⟩, ⟨0, 0⟩, ⟨24766690396151878, 10⟩, ⟨89740712058258520, 17⟩),
  (⟨24802402867942103, 10⟩, ⟨31744695589237926, 17⟩, ⟨0, 0⟩, ⟨24802402867942103, 10⟩, ⟨31744695589237926, 17⟩, ⟨0, 0⟩, ⟨24802402867942103, 10⟩, ⟨31744695589237926, 17⟩),
  (⟨24636367794011352, 10⟩, ⟨12292833293588223, 17⟩, ⟨0, 0⟩, ⟨24636367794011352, 10⟩, ⟨12292833293588223, 17⟩, ⟨0, 0⟩, ⟨24636367794011352, 10⟩, ⟨12292833293588223, 17⟩),
  (⟨24622919728488624, 10⟩, ⟨99561021662638316, 17⟩, ⟨0, 0⟩, ⟨24622919728488624, 10⟩, ⟨99561021662638316, 17⟩, ⟨0, 0⟩, ⟨24622919728488624, 10⟩, ⟨99561021662638316, 17⟩),
  (⟨24803397287883232, 10⟩, ⟨16697776783668361, 17⟩, ⟨0, 0⟩, ⟨24803397287883232, 10⟩, ⟨16697776783668361, 17⟩, ⟨0, 0⟩, ⟨24803397287883232, 10⟩, ⟨16697776783668361, 17⟩),
  (⟨24868823248786922, 10⟩, ⟨37634975153598160, 17⟩, ⟨0, 0⟩, ⟨24868823248786922, 10⟩, ⟨37634975153598160, 17⟩, ⟨0, 0⟩, ⟨24868823248786922, 10⟩, ⟨37634975153598160, 17⟩),
  (⟨24542925655379402, 10⟩, ⟨16478675426516465, 17⟩, ⟨0, 0⟩, ⟨24542925655379402, 10⟩, ⟨16478675426516465, 17⟩, ⟨0, 0⟩, ⟨24542925655379402, 10⟩, ⟨16478675426516465, 17⟩),
  (⟨24581254092634609, 10⟩, ⟨30372105075097611, 17⟩, ⟨0, 0⟩, ⟨24581254092634609, 10⟩, ⟨30372105075097611, 17⟩, ⟨0, 0⟩, ⟨24581254092634609, 10⟩, ⟨30372105075097611, 17⟩),
  (⟨24682939734414448, 10⟩, ⟨24050821924058274, 17⟩, ⟨0, 0⟩, ⟨24682939734414448, 10⟩, ⟨24050821924058274, 17⟩, ⟨0, 0⟩, ⟨24682939734414448, 10⟩, ⟨24050821924058274, 17⟩),
  (⟨24853667667214982, 10⟩, ⟨79488116378531215, 17⟩, ⟨0, 0⟩, ⟨24853667667214982, 10⟩, ⟨79488116378531215, 17⟩, ⟨0, 0⟩, ⟨24853667667214982, 10⟩, ⟨79488116378531215, 17⟩),
  (⟨24618916176729840, 10⟩, ⟨45959826611352916, 17⟩, ⟨0, 0⟩, ⟨24618916176729840, 10⟩, ⟨45959826611352916, 17⟩, ⟨0, 0⟩, ⟨24618916176729840, 10⟩, ⟨45959826611352916, 17⟩),
  (⟨24607828896532143, 10⟩, ⟨21862528175716378, 17⟩, ⟨0, 0⟩, ⟨24607828896532143, 10⟩, ⟨21862528175716378, 17⟩, ⟨0, 0⟩, ⟨24607828896532143, 10⟩, ⟨21862528175716378, 17⟩),
  (⟨24529309091467513, 10⟩, ⟨35353198916056339, 17⟩, ⟨0, 0⟩, ⟨24529309091467513, 10⟩, ⟨35353198916056339, 17⟩, ⟨0, 0⟩, ⟨24529309091467513, 10⟩, ⟨35353198916056339, 17⟩),
  (⟨24642600832469831, 10⟩, ⟨94653365785758559, 17⟩, ⟨0, 0⟩, ⟨24642600832469831, 10⟩, ⟨94653365785758559, 17⟩, ⟨0, 0⟩, ⟨24642600832469831, 10⟩, ⟨94653365785758559, 17⟩),
  (⟨24577348236217583, 10⟩, ⟨18760840396706580, 17⟩, ⟨0, 0⟩, ⟨24577348236217583, 10⟩, ⟨18760840396706580, 17⟩, ⟨0, 0⟩, ⟨24577348236217583, 10⟩, ⟨18760840396706580, 17⟩),
  (⟨24531985860249987, 10⟩, ⟨85537593614885554, 18⟩, ⟨0, 0⟩, ⟨24531985860249987, 10⟩, ⟨85537593614885554, 18⟩, ⟨0, 0⟩, ⟨24531985860249987, 10⟩, ⟨85537593614885554, 18⟩),
  (⟨24777801020282116, 10⟩, ⟨46964795815521165, 17⟩, ⟨0, 0⟩, ⟨24777801020282116, 10⟩, ⟨46964795815521165, 17⟩, ⟨0, 0⟩, ⟨24777801020282116, 10⟩, ⟨46964795815521165, 17⟩),
  (⟨24850522679632595, 10⟩, ⟨64775500267129205, 17⟩, ⟨0, 0⟩, ⟨24850522679632595, 10⟩, ⟨64775500267129205, 17⟩, ⟨0, 0⟩, ⟨24850522679632595, 10⟩, ⟨64775500267129205, 17⟩),
  (⟨24744419437714186, 10⟩, ⟨87142838263661893, 17⟩, ⟨0, 0⟩, ⟨24744419437714186, 10⟩, ⟨87142838263661893, 17⟩, ⟨0, 0⟩, ⟨24744419437714186, 10⟩, ⟨87142838263661893, 17⟩),
  (⟨24657288183785845, 10⟩, ⟨84105728913506816, 17⟩, ⟨0, 0⟩, ⟨24657288183785845, 10⟩, ⟨84105728913506816, 17⟩, ⟨0, 0⟩, ⟨24657288183785845, 10⟩, ⟨84105728913506816, 17⟩),
  (⟨24750515036327946, 10⟩, ⟨93425604159804732, 17⟩, ⟨0, 0⟩, ⟨24750515036327946, 10⟩, ⟨93425604159804732, 17⟩, ⟨0, 0⟩, ⟨24750515036327946, 10⟩, ⟨93425604159804732, 17⟩),
  (⟨24649902593562375, 10⟩, ⟨55049838677972074, 17⟩, ⟨0, 0⟩, ⟨24649902593562375, 10⟩, ⟨55049838677972074, 17⟩, ⟨0, 0⟩, ⟨24649902593562375, 10⟩, ⟨55049838677972074, 17⟩),
  (⟨24626857767248983, 10⟩, ⟨76458020360286505, 17⟩, ⟨0, 0⟩, ⟨24626857767248983, 10⟩, ⟨76458020360286505, 17⟩, ⟨0, 0⟩, ⟨24626857767248983, 10⟩, ⟨76458020360286505, 17⟩),
  (⟨24703925968703516, 10⟩, ⟨27943771892434832, 17⟩, ⟨0, 0⟩, ⟨24703925968703516, 10⟩, ⟨27943771892434832, 17⟩, ⟨0, 0⟩, ⟨24703925968703516, 10⟩, ⟨27943771892434832, 17⟩),
  (⟨24773945080580749, 10⟩, ⟨87404112389989519, 17⟩, ⟨0, 0⟩, ⟨24773945080580749, 10⟩, ⟨87404112389989519, 17⟩, ⟨0, 0⟩, ⟨24773945080580749, 10⟩, ⟨87404112389989519, 17⟩),
  (⟨24731923978105457, 10⟩, ⟨22679547716347237, 17⟩, ⟨0, 0⟩, ⟨24731923978105457, 10⟩, ⟨22679547716347237, 17⟩, ⟨0, 0⟩, ⟨24731923978105457, 10⟩, ⟨22679547716347237, 17⟩),
  (⟨24617255934212897, 10⟩, ⟨61585912759582506, 17⟩, ⟨0, 0⟩, ⟨24617255934212897, 10⟩, ⟨61585912759582506, 17⟩, ⟨0, 0⟩, ⟨24617255934212897, 10⟩, ⟨61585912759582506, 17⟩),
  (⟨24694697809931440, 10⟩, ⟨26373729046874494, 17⟩, ⟨0, 0⟩, ⟨24694697809931440, 10⟩, ⟨26373729046874494, 17⟩, ⟨0, 0⟩, ⟨24694697809931440, 10⟩, ⟨26373729046874494, 17⟩),
  (⟨24703981430490958, 10⟩, ⟨13626307156746631, 17⟩, ⟨0, 0⟩, ⟨24703981430490958, 10⟩, ⟨13626307156746631, 17⟩, ⟨0, 0⟩, ⟨24703981430490958, 10⟩, ⟨13626307156746631, 17⟩),
  (⟨24820782212277595, 10⟩, ⟨24077662164328040, 17⟩, ⟨0, 0⟩, ⟨24820782212277595, 10⟩, ⟨24077662164328040, 17⟩, ⟨0, 0⟩, ⟨24820782212277595, 10⟩, ⟨24077662164328040, 17⟩),
  (⟨24636557533218088, 10⟩, ⟨64657351975659250, 18⟩, ⟨0, 0⟩, ⟨24636557533218088, 10⟩, ⟨64657351975659250, 18⟩, ⟨0, 0⟩, ⟨24636557533218088, 10⟩, ⟨64657351975659250, 18⟩),
  (⟨24694197624521335, 10⟩, ⟨99365901537482715, 17⟩, ⟨0, 0⟩, ⟨24694197624521335, 10⟩, ⟨99365901537482715, 17⟩, ⟨0, 0⟩, ⟨24694197624521335, 10⟩, ⟨99365901537482715, 17⟩),
  (⟨24739778991983146, 10⟩, ⟨59225379053586602, 18⟩, ⟨0, 0⟩, ⟨24739778991983146, 10⟩, ⟨59225379053586602, 18⟩, ⟨0, 0⟩, ⟨24739778991983146, 10⟩, ⟨59225379053586602, 18⟩),
  (⟨24797370270481827, 10⟩, ⟨55071032995101521, 17⟩, ⟨0, 0⟩, ⟨24797370270481827, 10⟩, ⟨55071032995101521, 17⟩, ⟨0, 0⟩, ⟨24797370270481827, 10⟩, ⟨55071032995101521, 17⟩),
  (⟨24523753141880664, 10⟩, ⟨50875451195594334, 17⟩, ⟨0, 0⟩, ⟨24523753141880664, 10⟩, ⟨50875451195594334, 17⟩, ⟨0, 0⟩, ⟨24523753141880664, 10⟩, ⟨50875451195594334, 17⟩),
  (⟨24541404131440064, 10⟩, ⟨26687106228176161, 17⟩, ⟨0, 0⟩, ⟨24541404131440064, 10⟩, ⟨26687106228176161, 17⟩, ⟨0, 0⟩, ⟨24541404131440064, 10⟩, ⟨26687106228176161, 17⟩),
  (⟨24610345685494221, 10⟩, ⟨72235977111402161, 17⟩, ⟨0, 0⟩, ⟨24610345685494221, 10⟩, ⟨72235977111402161, 17⟩, ⟨0, 0⟩, ⟨24610345685494221, 10⟩, ⟨72235977111402161, 17⟩),
  (⟨24865496311798464, 10⟩, ⟨65023434404384517, 18⟩, ⟨0, 0⟩, ⟨24865496311798464, 10⟩, ⟨65023434404384517, 18⟩, ⟨0, 0⟩, ⟨24865496311798464, 10⟩, ⟨65023434404384517, 18⟩),
  (⟨24861786691425871, 10⟩, ⟨83195918601152963, 17⟩, ⟨0, 0⟩, ⟨24861786691425871, 10⟩, ⟨83195918601152963, 17⟩, ⟨0, 0⟩, ⟨24861786691425871, 10⟩, ⟨83195918601152963, 17⟩),
  (⟨24755762369880076, 10⟩, ⟨42205354696984376, 17⟩, ⟨0, 0⟩, ⟨24755762369880076, 10⟩, ⟨42205354696984376, 17⟩, ⟨0, 0⟩, ⟨24755762369880076, 10⟩, ⟨42205354696984376, 17⟩),
  (⟨24845827205481250, 10⟩, ⟨61272767875982281, 17⟩, ⟨0, 0⟩, ⟨24845827205481250, 10⟩, ⟨61272767875982281, 17⟩, ⟨0, 0⟩, ⟨24845827205481250, 10⟩, ⟨61272767875982281, 17⟩),
  (⟨24571237994778240, 10⟩, ⟨51892311389651002, 18⟩, ⟨0, 0⟩, ⟨24571237994778240, 10⟩, ⟨51892311389651002, 18⟩, ⟨0, 0⟩, ⟨24571237994778240, 10⟩, ⟨51892311389651002, 18⟩),
  (⟨24724072340617967, 10⟩, ⟨12213240097854372, 17⟩, ⟨0, 0⟩, ⟨24724072340617967, 10⟩, ⟨12213240097854372, 17⟩, ⟨0, 0⟩, ⟨24724072340617967, 10⟩, ⟨12213240097854372, 17⟩),
  (⟨24545851574920239, 10⟩, ⟨94691535699282270, 17⟩, ⟨0, 0⟩, ⟨24545851574920239, 10⟩, ⟨94691535699282270, 17⟩, ⟨0, 0⟩, ⟨24545851574920239, 10⟩, ⟨94691535699282270, 17⟩),
  (⟨24660391918987865, 10⟩, ⟨33123669991887750, 17⟩, ⟨0, 0⟩, ⟨24660391918987865, 10⟩, ⟨33123669991887750, 17⟩, ⟨0, 0⟩, ⟨24660391918987865, 10⟩, ⟨33123669991887750, 17⟩),
  (⟨24634435208996669, 10⟩, ⟨38298504973248393, 17⟩, ⟨0, 0⟩, ⟨24634435208996669, 10⟩, ⟨38298504973248393, 17⟩, ⟨0, 0⟩, ⟨24634435208996669, 10⟩, ⟨38298504973248393, 17⟩),
  (⟨24634421616091300, 10⟩, ⟨61600925897344005, 17⟩, ⟨0, 0⟩, ⟨24634421616091300, 10⟩, ⟨61600925897344005, 17⟩, ⟨0, 0⟩, ⟨24634421616091300, 10⟩, ⟨61600925897344005, 17⟩),
  (⟨24611195526120202, 10⟩, ⟨73231651186000624, 17⟩, ⟨0, 0⟩, ⟨24611195526120202, 10⟩, ⟨73231651186000624, 17⟩, ⟨0, 0⟩, ⟨24611195526120202, 10⟩, ⟨73231651186000624, 17⟩),
  (⟨24841403293478093, 10⟩, ⟨67983886909875557, 17⟩, ⟨0, 0⟩, ⟨24841403293478093, 10⟩, ⟨67983886909875557, 17⟩, ⟨0, 0⟩, ⟨24841403293478093, 10⟩, ⟨67983886909875557, 17⟩),
  (⟨24855805650620568, 10⟩, ⟨28710340879312013, 17⟩, ⟨0, 0⟩, ⟨24855805650620568, 10⟩, ⟨28710340879312013, 17⟩, ⟨0, 0⟩, ⟨24855805650620568, 10⟩, ⟨28710340879312013, 17⟩),
  (⟨24565145901213856, 10⟩, ⟨25954786184030909, 18⟩, ⟨0, 0⟩, ⟨24565145901213856, 10⟩, ⟨25954786184030909, 18⟩, ⟨0, 0⟩, ⟨24565145901213856, 10⟩, ⟨25954786184030909, 18⟩),
  (⟨24622347609276758, 10⟩, ⟨60555007421839724, 17⟩, ⟨0, 0⟩, ⟨24622347609276758, 10⟩, ⟨60555007421839724, 17⟩, ⟨0, 0⟩, ⟨24622347609276758, 10⟩, ⟨60555007421839724, 17⟩),
  (⟨24679174781325650, 10⟩, ⟨63112591327605161, 17⟩, ⟨0, 0⟩, ⟨24679174781325650, 10⟩, ⟨63112591327605161, 17⟩, ⟨0, 0⟩, ⟨24679174781325650, 10⟩, ⟨63112591327605161, 17⟩),
  (⟨24809741679664799, 10⟩, ⟨79347214965180546, 17⟩, ⟨0, 0⟩, ⟨24809741679664799, 10⟩, ⟨79347214965180546, 17⟩, ⟨0, 0⟩, ⟨24809741679664799, 10⟩, ⟨79347214965180546, 17⟩),
  (⟨24657161034149881, 10⟩, ⟨94985279372885023, 17⟩, ⟨0, 0⟩, ⟨24657161034149881, 10⟩, ⟨94985279372885023, 17⟩, ⟨0, 0⟩, ⟨24657161034149881, 10⟩, ⟨94985279372885023, 17⟩),
  (⟨24741538282072404, 10⟩, ⟨78396609055854183, 17⟩, ⟨0, 0⟩, ⟨24741538282072404, 10⟩, ⟨78396609055854183, 17⟩, ⟨0, 0⟩, ⟨24741538282072404, 10⟩, ⟨78396609055854183, 17⟩),
  (⟨24772422483803453, 10⟩, ⟨14679293277709426, 17⟩, ⟨0, 0⟩, ⟨24772422483803453, 10⟩, ⟨14679293277709426, 17⟩, ⟨0, 0⟩, ⟨24772422483803453, 10⟩, ⟨14679293277709426, 17⟩),
  (⟨24534915867622299, 10⟩, ⟨78730426303092060, 17⟩, ⟨0, 0⟩, ⟨24534915867622299, 10⟩, ⟨78730426303092060, 17⟩, ⟨0, 0⟩, ⟨24534915867622299, 10⟩, ⟨78730426303092060, 17⟩),
  (⟨24600206065847035, 10⟩, ⟨28314812947056911, 17⟩, ⟨0, 0⟩, ⟨24600206065847035, 10⟩, ⟨28314812947056911, 17⟩, ⟨0, 0⟩, ⟨24600206065847035, 10⟩, ⟨28314812947056911, 17⟩),
  (⟨24706980444540000, 10⟩, ⟨18317697527579946, 18⟩, ⟨0, 0⟩, ⟨24706980444540000, 10⟩, ⟨18317697527579946, 18⟩, ⟨0, 0⟩, ⟨24706980444540000, 10⟩, ⟨18317697527579946, 18⟩),
  (⟨24625379244126114, 10⟩, ⟨25309688751741499, 17⟩, ⟨0, 0⟩, ⟨24625379244126114, 10⟩, ⟨25309688751741499, 17⟩, ⟨0, 0⟩, ⟨24625379244126114, 10⟩, ⟨25309688751741499, 17⟩),
  (⟨24666571372359721, 10⟩, ⟨19059728519064167, 17⟩, ⟨0, 0⟩, ⟨24666571372359721, 10⟩, ⟨19059728519064167, 17⟩, ⟨0, 0⟩, ⟨24666571372359721, 10⟩, ⟨19059728519064167, 17⟩),
  (⟨24643780801828019, 10⟩, ⟨33032051590435352, 17⟩, ⟨0, 0⟩, ⟨24643780801828019, 10⟩, ⟨33032051590435352, 17⟩, ⟨0, 0⟩, ⟨24643780801828019, 10⟩, ⟨33032051590435352, 17⟩),
  (⟨24621345642283587, 10⟩, ⟨59250709198460894, 17⟩, ⟨0, 0⟩, ⟨24621345642283587, 10⟩, ⟨59250709198460894, 17⟩, ⟨0, 0⟩, ⟨24621345642283587, 10⟩, ⟨59250709198460894, 17⟩),
  (⟨24621288660129416, 10⟩, ⟨37451015532708154, 17⟩, ⟨0, 0⟩, ⟨24621288660129416, 10⟩, ⟨37451015532708154, 17⟩, ⟨0, 0⟩, ⟨24621288660129416, 10⟩, ⟨37451015532708154, 17⟩),
  (⟨24774405130566959, 10⟩, ⟨77105671518434982, 17⟩, ⟨0, 0⟩, ⟨24774405130566959, 10⟩, ⟨77105671518434982, 17⟩, ⟨0, 0⟩, ⟨24774405130566959, 10⟩, ⟨77105671518434982, 17⟩),
  (⟨24519839416153720, 10⟩, ⟨30479267682094335, 17⟩, ⟨0, 0⟩, ⟨24519839416153720, 10⟩, ⟨30479267682094335, 17⟩, ⟨0, 0⟩, ⟨24519839416153720, 10⟩, ⟨30479267682094335, 17⟩),
  (⟨24719653135748128, 10⟩, ⟨18089123794354733, 17⟩, ⟨0, 0⟩, ⟨24719653135748128, 10⟩, ⟨18089123794354733, 17⟩, ⟨0, 0⟩, ⟨24719653135748128, 10⟩, ⟨18089123794354733, 17⟩)]

/-- Entries 400 to 499. -/
def C2t_4 : List (Dec × Dec × Dec × Dec × Dec × Dec × Dec × Dec) := [
  (⟨24859082479480160, 10⟩, ⟨55298337799362940, 17⟩, ⟨0, 0⟩, ⟨24859082479480160, 10⟩, ⟨55298337799362940, 17⟩, ⟨0, 0⟩, ⟨24859082479480160, 10⟩, ⟨55298337799362940, 17⟩),
  (⟨24702134466563240, 10⟩, ⟨58865808704530198, 17⟩, ⟨0, 0⟩, ⟨24702134466563240, 10⟩, ⟨58865808704530198, 17⟩, ⟨0, 0⟩, ⟨24702134466563240, 10⟩, ⟨58865808704530198, 17⟩),
  (⟨24621652323641060, 10⟩, ⟨43269298296310010, 17⟩, ⟨0, 0⟩, ⟨24621652323641060, 10⟩, ⟨43269298296310010, 17⟩, ⟨0, 0⟩, ⟨24621652323641060, 10⟩, ⟨43269298296310010, 17⟩),
  (⟨24629855221707663, 10⟩, ⟨96858920646462621, 18⟩, ⟨0, 0⟩, ⟨24629855221707663, 10⟩, ⟨96858920646462621, 18⟩, ⟨0, 0⟩, ⟨24629855221707663, 10⟩, ⟨96858920646462621, 18⟩),
  (⟨24703673753393870, 10⟩, ⟨31821071123658506, 18⟩, ⟨0, 0⟩, ⟨24703673753393870, 10⟩, ⟨31821071123658506, 18⟩, ⟨0, 0⟩, ⟨24703673753393870, 10⟩, ⟨31821071123658506, 18⟩),
  (⟨24611276719997888, 10⟩, ⟨80532187504729769, 17⟩, ⟨0, 0⟩, ⟨24611276719997888, 10⟩, ⟨80532187504729769, 17⟩, ⟨0, 0⟩, ⟨24611276719997888, 10⟩, ⟨80532187504729769, 17⟩),
  (⟨24520987403828944, 10⟩, ⟨77443241954265407, 17⟩, ⟨0, 0⟩, ⟨24520987403828944, 10⟩, ⟨77443241954265407, 17⟩, ⟨0, 0⟩, ⟨24520987403828944, 10⟩, ⟨77443241954265407, 17⟩),
  (⟨24740254300836725, 10⟩, ⟨17167438657143097, 17⟩, ⟨0, 0⟩, ⟨24740254300836725, 10⟩, ⟨17167438657143097, 17⟩, ⟨0, 0⟩, ⟨24740254300836725, 10⟩, ⟨17167438657143097, 17⟩),
  (⟨24703441227409504, 10⟩, ⟨17223451267648826, 17⟩, ⟨0, 0⟩, ⟨24703441227409504, 10⟩, ⟨17223451267648826, 17⟩, ⟨0, 0⟩, ⟨24703441227409504, 10⟩, ⟨17223451267648826, 17⟩),
  (⟨24689563072668947, 10⟩, ⟨89929740075909881, 17⟩, ⟨0, 0⟩, ⟨24689563072668947, 10⟩, ⟨89929740075909881, 17⟩, ⟨0, 0⟩, ⟨24689563072668947, 10⟩, ⟨89929740075909881, 17⟩),
  (⟨24822441181769259, 10⟩, ⟨67446013015991757, 17⟩, ⟨0, 0⟩, ⟨24822441181769259, 10⟩, ⟨67446013015991757, 17⟩, ⟨0, 0⟩, ⟨24822441181769259, 10⟩, ⟨67446013015991757, 17⟩),
  (⟨24845340192328468, 10⟩, ⟨20414644359866874, 17⟩, ⟨0, 0⟩, ⟨24845340192328468, 10⟩, ⟨20414644359866874, 17⟩, ⟨0, 0⟩, ⟨24845340192328468, 10⟩, ⟨20414644359866874, 17⟩),
  (⟨24547321345851119, 10⟩, ⟨36290066563378076, 17⟩, ⟨0, 0⟩, ⟨24547321345851119, 10⟩, ⟨36290066563378076, 17⟩, ⟨0, 0⟩, ⟨24547321345851119, 10⟩, ⟨36290066563378076, 17⟩),
  (⟨24808559880697597, 10⟩, ⟨47673191745625532, 17⟩, ⟨0, 0⟩, ⟨24808559880697597, 10⟩, ⟨47673191745625532, 17⟩, ⟨0, 0⟩, ⟨24808559880697597, 10⟩, ⟨47673191745625532, 17⟩),
  (⟨24539609236311144, 10⟩, ⟨99314273988280710, 17⟩, ⟨0, 0⟩, ⟨24539609236311144, 10⟩, ⟨99314273988280710, 17⟩, ⟨0, 0⟩, ⟨24539609236311144, 10⟩, ⟨99314273988280710, 17⟩),
  (⟨24640062466224208, 10⟩, ⟨27173748504306872, 18⟩, ⟨0, 0⟩, ⟨24640062466224208, 10⟩, ⟨27173748504306872, 18⟩, ⟨0, 0⟩, ⟨24640062466224208, 10⟩, ⟨27173748504306872, 18⟩),
  (⟨24542663268089457, 10⟩, ⟨83085327794664277, 17⟩, ⟨0, 0⟩, ⟨24542663268089457, 10⟩, ⟨83085327794664277, 17⟩, ⟨0, 0⟩, ⟨24542663268089457, 10⟩, ⟨83085327794664277, 17⟩),
  (⟨24741879974767738, 10⟩, ⟨14625477211872084, 17⟩, ⟨0, 0⟩, ⟨24741879974767738, 10⟩, ⟨14625477211872084, 17⟩, ⟨0, 0⟩, ⟨24741879974767738, 10⟩, ⟨14625477211872084, 17⟩),
  (⟨24561326623919182, 10⟩, ⟨40206935852084169, 17⟩, ⟨0, 0⟩, ⟨24561326623919182, 10⟩, ⟨40206935852084169, 17⟩, ⟨0, 0⟩, ⟨24561326623919182, 10⟩, ⟨40206935852084169, 17⟩),
  (⟨24679930665427498, 10⟩, ⟨53902638622986998, 17⟩, ⟨0, 0⟩, ⟨24679930665427498, 10⟩, ⟨53902638622986998, 17⟩, ⟨0, 0⟩, ⟨24679930665427498, 10⟩, ⟨53902638622986998, 17⟩),
  (⟨24672228879704126, 10⟩, ⟨55659720808474666, 17⟩, ⟨0, 0⟩, ⟨24672228879704126, 10⟩, ⟨55659720808474666, 17⟩, ⟨0, 0⟩, ⟨24672228879704126, 10⟩, ⟨55659720808474666, 17⟩),
  (⟨24644923313448164, 10⟩, ⟨75091996044563714, 17⟩, ⟨0, 0⟩, ⟨24644923313448164, 10⟩, ⟨75091996044563714, 17⟩, ⟨0, 0⟩, ⟨24644923313448164, 10⟩, ⟨75091996044563714, 17⟩),
  (⟨24736084092362607, 10⟩, ⟨82107380206173619, 17⟩, ⟨0, 0⟩, ⟨24736084092362607, 10⟩, ⟨82107380206173619, 17⟩, ⟨0, 0⟩, ⟨24736084092362607, 10⟩, ⟨82107380206173619, 17⟩),
  (⟨24808503823676091, 10⟩, ⟨28787073493829352, 17⟩, ⟨0, 0⟩, ⟨24808503823676091, 10⟩, ⟨28787073493829352, 17⟩, ⟨0, 0⟩, ⟨24808503823676091, 10⟩, ⟨28787073493829352, 17⟩),
  (⟨24553033954390562, 10⟩, ⟨43926295577201413, 17⟩, ⟨0, 0⟩, ⟨24553033954390562, 10⟩, ⟨43926295577201413, 17⟩, ⟨0, 0⟩, ⟨24553033954390562, 10⟩, ⟨43926295577201413, 17⟩),
  (⟨24835928340521487, 10⟩, ⟨98420323119498043, 17⟩, ⟨0, 0⟩, ⟨24835928340521487, 10⟩, ⟨98420323119498043, 17⟩, ⟨0, 0⟩, ⟨24835928340521487, 10⟩, ⟨98420323119498043, 17⟩),
  (⟨24771523199467133, 10⟩, ⟨33274556424633950, 19⟩, ⟨0, 0⟩, ⟨24771523199467133, 10⟩, ⟨33274556424633950, 19⟩, ⟨0, 0⟩, ⟨24771523199467133, 10⟩, ⟨33274556424633950, 19⟩),
  (⟨24844169589064945, 10⟩, ⟨99188745596223815, 18⟩, ⟨0, 0⟩, ⟨24844169589064945, 10⟩, ⟨99188745596223815, 18⟩, ⟨0, 0⟩, ⟨24844169589064945, 10⟩, ⟨99188745596223815, 18⟩),
  (⟨24687724600401297, 10⟩, ⟨71235376890957391, 17⟩, ⟨0, 0⟩, ⟨24687724600401297, 10⟩, ⟨71235376890957391, 17⟩, ⟨0, 0⟩, ⟨24687724600401297, 10⟩, ⟨71235376890957391, 17⟩),
  (⟨24646121247024229, 10⟩, ⟨32196804262273160, 17⟩, ⟨0, 0⟩, ⟨24646121247024229, 10⟩, ⟨32196804262273160, 17⟩, ⟨0, 0⟩, ⟨24646121247024229, 10⟩, ⟨32196804262273160, 17⟩),
  (⟨24651301069620675, 10⟩, ⟨24514740603125162, 17⟩, ⟨0, 0⟩, ⟨24651301069620675, 10⟩, ⟨24514740603125162, 17⟩, ⟨0, 0⟩, ⟨24651301069620675, 10⟩, ⟨24514740603125162, 17⟩),
  (⟨24648478152429108, 10⟩, ⟨32505887154463653, 17⟩, ⟨0, 0⟩, ⟨24648478152429108, 10⟩, ⟨32505887154463653, 17⟩, ⟨0, 0⟩, ⟨24648478152429108, 10⟩, ⟨32505887154463653, 17⟩),
  (⟨24858849377985522, 10⟩, ⟨53123809373940689, 17⟩, ⟨0, 0⟩, ⟨24858849377985522, 10⟩, ⟨53123809373940689, 17⟩, ⟨0, 0⟩, ⟨24858849377985522, 10⟩, ⟨53123809373940689, 17⟩),
  (⟨24536626394591588, 10⟩, ⟨15369437605821656, 17⟩, ⟨0, 0⟩, ⟨24536626394591588, 10⟩, ⟨15369437605821656, 17⟩, ⟨0, 0⟩, ⟨24536626394591588, 10⟩, ⟨15369437605821656, 17⟩),
  (⟨24665535263643274, 10⟩, ⟨53927352042741417, 17⟩, ⟨0, 0⟩, ⟨24665535263643274, 10⟩, ⟨53927352042741417, 17⟩, ⟨0, 0⟩, ⟨24665535263643274, 10⟩, ⟨53927352042741417, 17⟩),
  (⟨24737249561245190, 10⟩, ⟨90592350622447304, 18⟩, ⟨0, 0⟩, ⟨24737249561245190, 10⟩, ⟨90592350622447304, 18⟩, ⟨0, 0⟩, ⟨24737249561245190, 10⟩, ⟨90592350622447304, 18⟩),
  (⟨24836595109563870, 10⟩, ⟨91623225183074108, 17⟩, ⟨0, 0⟩, ⟨24836595109563870, 10⟩, ⟨91623225183074108, 17⟩, ⟨0, 0⟩, ⟨24836595109563870, 10⟩, ⟨91623225183074108, 17⟩),
  (⟨24639107464912077, 10⟩, ⟨11264807901941287, 17⟩, ⟨0, 0⟩, ⟨24639107464912077, 10⟩, ⟨11264807901941287, 17⟩, ⟨0, 0⟩, ⟨24639107464912077, 10⟩, ⟨11264807901941287, 17⟩),
  (⟨24671839066469278, 10⟩, ⟨45844414001343636, 17⟩, ⟨0, 0⟩, ⟨24671839066469278, 10⟩, ⟨45844414001343636, 17⟩, ⟨0, 0⟩, ⟨24671839066469278, 10⟩, ⟨45844414001343636, 17⟩),
  (⟨24632909772799327, 10⟩, ⟨43296702830761580, 17⟩, ⟨0, 0⟩, ⟨24632909772799327, 10⟩, ⟨43296702830761580, 17⟩, ⟨0, 0⟩, ⟨24632909772799327, 10⟩, ⟨43296702830761580, 17⟩),
  (⟨24629206286135041, 10⟩, ⟨12706532216483268, 17⟩, ⟨0, 0⟩, ⟨24629206286135041, 10⟩, ⟨12706532216483268, 17⟩, ⟨0, 0⟩, ⟨24629206286135041, 10⟩, ⟨12706532216483268, 17⟩),
  (⟨24811314211802664, 10⟩, ⟨64341189917204600, 17⟩, ⟨0, 0⟩, ⟨24811314211802664, 10⟩, ⟨64341189917204600, 17⟩, ⟨0, 0⟩, ⟨24811314211802664, 10⟩, ⟨64341189917204600, 17⟩),
  (⟨24628830159486062, 10⟩, ⟨43566318005678073, 17⟩, ⟨0, 0⟩, ⟨24628830159486062, 10⟩, ⟨43566318005678073, 17⟩, ⟨0, 0⟩, ⟨24628830159486062, 10⟩, ⟨43566318005678073, 17⟩),
  (⟨24553828075390467, 10⟩, ⟨93818771633940290, 17⟩, ⟨0, 0⟩, ⟨24553828075390467, 10⟩, ⟨93818771633940290, 17⟩, ⟨0, 0⟩, ⟨24553828075390467, 10⟩, ⟨93818771633940290, 17⟩),
  (⟨24742098304524813, 10⟩, ⟨12554338958085309, 17⟩, ⟨0, 0⟩, ⟨24742098304524813, 10⟩, ⟨12554338958085309, 17⟩, ⟨0, 0⟩, ⟨24742098304524813, 10⟩, ⟨12554338958085309, 17⟩),
  (⟨24738058728306517, 10⟩, ⟨43658905363860634, 18⟩, ⟨0, 0⟩, ⟨24738058728306517, 10⟩, ⟨43658905363860634, 18⟩, ⟨0, 0⟩, ⟨24738058728306517, 10⟩, ⟨43658905363860634, 18⟩),
  (⟨24591469140288513, 10⟩, ⟨74641361787862948, 17⟩, ⟨0, 0⟩, ⟨24591469140288513, 10⟩, ⟨74641361787862948, 17⟩, ⟨0, 0⟩, ⟨24591469140288513, 10⟩, ⟨74641361787862948, 17⟩),
  (⟨24829647043435816, 10⟩, ⟨93357443040578247, 18⟩, ⟨0, 0⟩, ⟨24829647043435816, 10⟩, ⟨93357443040578247, 18⟩, ⟨0, 0⟩, ⟨24829647043435816, 10⟩, ⟨93357443040578247, 18⟩),
  (⟨24658938161864639, 10⟩, ⟨71613628617908265, 17⟩, ⟨0, 0⟩, ⟨24658938161864639, 10⟩, ⟨71613628617908265, 17⟩, ⟨0, 0⟩, ⟨24658938161864639, 10⟩, ⟨71613628617908265, 17⟩),
  (⟨24742311457208586, 10⟩, ⟨42720425798275163, 17⟩, ⟨0, 0⟩, ⟨24742311457208586, 10⟩, ⟨42720425798275163, 17⟩, ⟨0, 0⟩, ⟨24742311457208586, 10⟩, ⟨42720425798275163, 17⟩),
  (⟨24753485110347080, 10⟩, ⟨17471222952629128, 17⟩, ⟨0, 0⟩, ⟨24753485110347080, 10⟩, ⟨17471222952629128, 17⟩, ⟨0, 0⟩, ⟨24753485110347080, 10⟩, ⟨17471222952629128, 17⟩),
  (⟨24568918361275340, 10⟩, ⟨61806772129255527, 17⟩, ⟨0, 0⟩, ⟨24568918361275340, 10⟩, ⟨61806772129255527, 17⟩, ⟨0, 0⟩, ⟨24568918361275340, 10⟩, ⟨61806772129255527, 17⟩),
  (⟨24808997788382457, 10⟩, ⟨96901247460260409, 17⟩, ⟨0, 0⟩, ⟨24808997788382457, 10⟩, ⟨96901247460260409, 17⟩, ⟨0, 0⟩, ⟨24808997788382457, 10⟩, ⟨96901247460260409, 17⟩),
  (⟨24809904435811788, 10⟩, ⟨92918680873596815, 17⟩, ⟨0, 0⟩, ⟨24809904435811788, 10⟩, ⟨92918680873596815, 17⟩, ⟨0, 0⟩, ⟨24809904435811788, 10⟩, ⟨92918680873596815, 17⟩),
  (⟨24859574178673518, 10⟩, ⟨84242664256322763, 17⟩, ⟨0, 0⟩, ⟨24859574178673518, 10⟩, ⟨84242664256322763, 17⟩, ⟨0, 0⟩, ⟨24859574178673518, 10⟩, ⟨84242664256322763, 17⟩),
  (⟨24865273509161160, 10⟩, ⟨15649973337445666, 17⟩, ⟨0, 0⟩, ⟨24865273509161160, 10⟩, ⟨15649973337445666, 17⟩, ⟨0, 0⟩, ⟨24865273509161160, 10⟩, ⟨15649973337445666, 17⟩),
  (⟨24702829375669407, 10⟩, ⟨55461031293644103, 18⟩, ⟨0, 0⟩, ⟨24702829375669407, 10⟩, ⟨55461031293644103, 18⟩, ⟨0, 0⟩, ⟨24702829375669407, 10⟩, ⟨55461031293644103, 18⟩),
  (⟨24565291949650091, 10⟩, ⟨52255940792790367, 17⟩, ⟨0, 0⟩, ⟨24565291949650091, 10⟩, ⟨52255940792790367, 17⟩, ⟨0, 0⟩, ⟨24565291949650091, 10⟩, ⟨52255940792790367, 17⟩),
  (⟨24654131347497730, 10⟩, ⟨57218209986311330, 18⟩, ⟨0, 0⟩, ⟨24654131347497730, 10⟩, ⟨57218209986311330, 18⟩, ⟨0, 0⟩, ⟨24654131347497730, 10⟩, ⟨57218209986311330, 18⟩),
  (⟨24720026622000146, 10⟩, ⟨68946462714372381, 17⟩, ⟨0, 0⟩, ⟨24720026622000146, 10⟩, ⟨68946462714372381, 17⟩, ⟨0, 0⟩, ⟨24720026622000146, 10⟩, ⟨68946462714372381, 17⟩),
  (⟨24611494119322002, 10⟩, ⟨22470694200076213, 17⟩, ⟨0, 0⟩, ⟨24611494119322002, 10⟩, ⟨22470694200076213, 17⟩, ⟨0, 0⟩, ⟨24611494119322002, 10⟩, ⟨22470694200076213, 17⟩),
  (⟨24661039198470758, 10⟩, ⟨98532969110188662, 17⟩, ⟨0, 0⟩, ⟨24661039198470758, 10⟩, ⟨98532969110188662, 17⟩, ⟨0, 0⟩, ⟨24661039198470758, 10⟩, ⟨98532969110188662, 17⟩),
  (⟨24653301802829206, 10⟩, ⟨48320412199429796, 17⟩, ⟨0, 0⟩, ⟨24653301802829206, 10⟩, ⟨48320412199429796, 17⟩, ⟨0, 0⟩, ⟨24653301802829206, 10⟩, ⟨48320412199429796, 17⟩),
  (⟨24837825259219296, 10⟩, ⟨54421685925102103, 18⟩, ⟨0, 0⟩, ⟨24837825259219296, 10⟩, ⟨54421685925102103, 18⟩, ⟨0, 0⟩, ⟨24837825259219296, 10⟩, ⟨54421685925102103, 18⟩),
  (⟨24868520078807748, 10⟩, ⟨64024904920599723, 17⟩, ⟨0, 0⟩, ⟨24868520078807748, 10⟩, ⟨64024904920599723, 17⟩, ⟨0, 0⟩, ⟨24868520078807748, 10⟩, ⟨64024904920599723, 17⟩),
  (⟨24700350900731231, 10⟩, ⟨82922875562995157, 17⟩, ⟨0, 0⟩, ⟨24700350900731231, 10⟩, ⟨82922875562995157, 17⟩, ⟨0, 0⟩, ⟨24700350900731231, 10⟩, ⟨82922875562995157, 17⟩),
  (⟨24621622172973887, 10⟩, ⟨37360709851510798, 17⟩, ⟨0, 0⟩, ⟨24621622172973887, 10⟩, ⟨37360709851510798, 17⟩, ⟨0, 0⟩, ⟨24621622172973887, 10⟩, ⟨37360709851510798, 17⟩),
  (⟨24760072800120553, 10⟩, ⟨18067897204450778, 17⟩, ⟨0, 0⟩, ⟨24760072800120553, 10⟩, ⟨18067897204450778, 17⟩, ⟨0, 0⟩, ⟨24760072800120553, 10⟩, ⟨18067897204450778, 17⟩),
  (⟨24797067787002106, 10⟩, ⟨19985112101286817, 17⟩, ⟨0, 0⟩, ⟨24797067787002106, 10⟩, ⟨19985112101286817, 17⟩, ⟨0, 0⟩, ⟨24797067787002106, 10⟩, ⟨19985112101286817, 17⟩),
  (⟨24551602500890638, 10⟩, ⟨17542381584347277, 17⟩, ⟨0, 0⟩, ⟨24551602500890638, 10⟩, ⟨17542381584347277, 17⟩, ⟨0, 0⟩, ⟨24551602500890638, 10⟩, ⟨17542381584347277, 17⟩),
  (⟨24611607880187584, 10⟩, ⟨78469766619817749, 18⟩, ⟨0, 0⟩, ⟨24611607880187584, 10⟩, ⟨78469766619817749, 18⟩, ⟨0, 0⟩, ⟨24611607880187584, 10⟩, ⟨78469766619817749, 18⟩),
  (⟨24827794315420790, 10⟩, ⟨26623629402974858, 17⟩, ⟨0, 0⟩, ⟨24827794315420790, 10⟩, ⟨26623629402974858, 17⟩, ⟨0, 0⟩, ⟨24827794315420790, 10⟩, ⟨26623629402974858, 17⟩),
  (⟨24730279499953934, 10⟩, ⟨79905497077190568, 17⟩, ⟨0, 0⟩, ⟨24730279499953934, 10⟩, ⟨79905497077190568, 17⟩, ⟨0, 0⟩, ⟨24730279499953934, 10⟩, ⟨79905497077190568, 17⟩),
  (⟨24682780735583641, 10⟩, ⟨54969336145467840, 18⟩, ⟨0, 0⟩, ⟨24682780735583641, 10⟩, ⟨54969336145467840, 18⟩, ⟨0, 0⟩, ⟨24682780735583641, 10⟩, ⟨54969336145467840, 18⟩),
  (⟨24718075614272766, 10⟩, ⟨63328580328059647, 17⟩, ⟨0, 0⟩, ⟨24718075614272766, 10⟩, ⟨63328580328059647, 17⟩, ⟨0, 0⟩, ⟨24718075614272766, 10⟩, ⟨63328580328059647, 17⟩),
  (⟨24687153226797991, 10⟩, ⟨45912186742430972, 17⟩, ⟨0, 0⟩, ⟨24687153226797991, 10⟩, ⟨45912186742430972, 17⟩, ⟨0, 0⟩, ⟨24687153226797991, 10⟩, ⟨45912186742430972, 17⟩),
  (⟨24562985643030223, 10⟩, ⟨81894815160186285, 17⟩, ⟨0, 0⟩, ⟨24562985643030223, 10⟩, ⟨81894815160186285, 17⟩, ⟨0, 0⟩, ⟨24562985643030223, 10⟩, ⟨81894815160186285, 17⟩),
  (⟨24717061561331265, 10⟩, ⟨42453026173048825, 17⟩, ⟨0, 0⟩, ⟨24717061561331265, 10⟩, ⟨42453026173048825, 17⟩, ⟨0, 0⟩, ⟨24717061561331265, 10⟩, ⟨42453026173048825, 17⟩),
  (⟨24706824079279061, 10⟩, ⟨61359954869727273, 17⟩, ⟨0, 0⟩, ⟨24706824079279061, 10⟩, ⟨61359954869727273, 17⟩, ⟨0, 0⟩, ⟨24706824079279061, 10⟩, ⟨61359954869727273, 17⟩),
  (⟨24618303310106369, 10⟩, ⟨63487248170899580, 17⟩, ⟨0, 0⟩, ⟨24618303310106369, 10⟩, ⟨63487248170899580, 17⟩, ⟨0, 0⟩, ⟨24618303310106369, 10⟩, ⟨63487248170899580, 17⟩),
  (⟨24604705771034299, 10⟩, ⟨83080724939725392, 17⟩, ⟨0, 0⟩, ⟨24604705771034299, 10⟩, ⟨83080724939725392, 17⟩, ⟨0, 0⟩, ⟨24604705771034299, 10⟩, ⟨83080724939725392, 17⟩),
  (⟨24633501113504237, 10⟩, ⟨15604762820754237, 17⟩, ⟨0, 0⟩, ⟨24633501113504237, 10⟩, ⟨15604762820754237, 17⟩, ⟨0, 0⟩, ⟨24633501113504237, 10⟩, ⟨15604762820754237, 17⟩),
  (⟨24803218275204068, 10⟩, ⟨47936257869531573, 17⟩, ⟨0, 0⟩, ⟨24803218275204068, 10⟩, ⟨47936257869531573, 17⟩, ⟨0, 0⟩, ⟨24803218275204068, 10⟩, ⟨47936257869531573, 17⟩),
  (⟨24601356636484088, 10⟩, ⟨60218103227510522, 17⟩, ⟨0, 0⟩, ⟨24601356636484088, 10⟩, ⟨60218103227510522, 17⟩, ⟨0, 0⟩, ⟨24601356636484088, 10⟩, ⟨60218103227510522, 17⟩),
  (⟨24824859509857087, 10⟩, ⟨27510608389374014, 17⟩, ⟨0, 0⟩, ⟨24824859509857087, 10⟩, ⟨27510608389374014, 17⟩, ⟨0, 0⟩, ⟨24824859509857087, 10⟩, ⟨27510608389374014, 17⟩),
  (⟨24849828890034552, 10⟩, ⟨84740791314531594, 17⟩, ⟨0, 0⟩, ⟨24849828890034552, 10⟩, ⟨84740791314531594, 17⟩, ⟨0, 0⟩, ⟨24849828890034552, 10⟩, ⟨84740791314531594, 17⟩),
  (⟨24690261684029684, 10⟩, ⟨64959132307974843, 17⟩, ⟨0, 0⟩, ⟨24690261684029684, 10⟩, ⟨64959132307974843, 17⟩, ⟨0, 0⟩, ⟨24690261684029684, 10⟩, ⟨64959132307974843, 17⟩),
  (⟨24692012546976814, 10⟩, ⟨60577511112625293, 17⟩, ⟨0, 0⟩, ⟨24692012546976814, 10⟩, ⟨60577511112625293, 17⟩, ⟨0, 0⟩, ⟨24692012546976814, 10⟩, ⟨60577511112625293, 17⟩),
  (⟨24744910633909740, 10⟩, ⟨46671728805035784, 17⟩, ⟨0, 0⟩, ⟨24744910633909740, 10⟩, ⟨46671728805035784, 17⟩, ⟨0, 0⟩, ⟨24744910633909740, 10⟩, ⟨46671728805035784, 17⟩),
  (⟨24768528540379945, 10⟩, ⟨73065699315758825, 17⟩, ⟨0, 0⟩, ⟨24768528540379945, 10⟩, ⟨73065699315758825, 17⟩, ⟨0, 0⟩, ⟨24768528540379945, 10⟩, ⟨73065699315758825, 17⟩),
  (⟨24640846243805727, 10⟩, ⟨20085312813371126, 17⟩, ⟨0, 0⟩, ⟨24640846243805727, 10⟩, ⟨20085312813371126, 17⟩, ⟨0, 0⟩, ⟨24640846243805727, 10⟩, ⟨20085312813371126, 17⟩),
  (⟨24608039451070623, 10⟩, ⟨97446435834974254, 17⟩, ⟨0, 0⟩, ⟨24608039451070623, 10⟩, ⟨97446435834974254, 17⟩, ⟨0, 0⟩, ⟨24608039451070623, 10⟩, ⟨97446435834974254, 17⟩),
  (⟨24776272377757314, 10⟩, ⟨70100014502551400, 17⟩, ⟨0, 0⟩, ⟨24776272377757314, 10⟩, ⟨70100014502551400, 17⟩, ⟨0, 0⟩, ⟨24776272377757314, 10⟩, ⟨70100014502551400, 17⟩),
  (⟨24728551305163396, 10⟩, ⟨17602250164603228, 17⟩, ⟨0, 0⟩, ⟨24728551305163396, 10⟩, ⟨17602250164603228, 17⟩, ⟨0, 0⟩, ⟨24728551305163396, 10⟩, ⟨17602250164603228, 17⟩),
  (⟨24677573804632099, 10⟩, ⟨45576948298245035, 17⟩, ⟨0, 0⟩, ⟨24677573804632099, 10⟩, ⟨45576948298245035, 17⟩, ⟨0, 0⟩, ⟨24677573804632099, 10⟩, ⟨45576948298245035, 17⟩),
  (⟨24595719566994421, 10⟩, ⟨57965709039356472, 17⟩, ⟨0, 0⟩, ⟨24595719566994421, 10⟩, ⟨57965709039356472, 17⟩, ⟨0, 0⟩, ⟨24595719566994421, 10⟩, ⟨57965709039356472, 17⟩),
  (⟨24751918208432370, 10⟩, ⟨27862847214124498, 17⟩, ⟨0, 0⟩, ⟨24751918208432370, 10⟩, ⟨27862847214124498, 17⟩, ⟨0, 0⟩, ⟨24751918208432370, 10⟩, ⟨27862847214124498, 17⟩),
  (⟨24811951125091431, 10⟩, ⟨95009360023746436, 17⟩, ⟨0, 0⟩, ⟨24811951125091431, 10⟩, ⟨95009360023746436, 17⟩, ⟨0, 0⟩, ⟨24811951125091431, 10⟩, ⟨95009360023746436, 17⟩),
  (⟨24871989451471656, 10⟩, ⟨74305366766910497, 17⟩, ⟨0, 0⟩, ⟨24871989451471656, 10⟩, ⟨74305366766910497, 17⟩, ⟨0, 0⟩, ⟨24871989451471656, 10⟩, ⟨74305366766910497, 17⟩),
  (⟨24785174616596424, 10⟩, ⟨91017205625614683, 17⟩, ⟨0, 0⟩, ⟨24785174616596424, 10⟩, ⟨91017205625614683, 17⟩, ⟨0, 0⟩, ⟨24785174616596424, 10⟩, ⟨91017205625614683, 17⟩)]

/-- Entries 500 to 599. -/
def C2t_5 : List (Dec × Dec × Dec × Dec × Dec × Dec × Dec × Dec) := [
  (⟨24795697243176023, 10⟩, ⟨96375699668669812, 17⟩, ⟨0, 0⟩, ⟨24795697243176023, 10⟩, ⟨96375699668669812, 17⟩, ⟨0, 0⟩, ⟨24795697243176023, 10⟩, ⟨96375699668669812, 17⟩),
  (⟨24748017975120437, 10⟩, ⟨78100913673752170, 17⟩, ⟨0, 0⟩, ⟨24748017975120437, 10⟩, ⟨78100913673752170, 17⟩, ⟨0, 0⟩, ⟨24748017975120437, 10⟩, ⟨78100913673752170, 17⟩),
  (⟨24522584109978899, 10⟩, ⟨53373139905978051, 17⟩, ⟨0, 0⟩, ⟨24522584109978899, 10⟩, ⟨53373139905978051, 17⟩, ⟨0, 0⟩, ⟨24522584109978899, 10⟩, ⟨53373139905978051, 17⟩),
  (⟨24544300915981210, 10⟩, ⟨83317703320262970, 17⟩, ⟨0, 0⟩, ⟨24544300915981210, 10⟩, ⟨83317703320262970, 17⟩, ⟨0, 0⟩, ⟨24544300915981210, 10⟩, ⟨83317703320262970, 17⟩),
  (⟨24616348708551987, 10⟩, ⟨31412327370646986, 17⟩, ⟨0, 0⟩, ⟨24616348708551987, 10⟩, ⟨31412327370646986, 17⟩, ⟨0, 0⟩, ⟨24616348708551987, 10⟩, ⟨31412327370646986, 17⟩),
  (⟨24786787378203385, 10⟩, ⟨35980372252303239, 17⟩, ⟨0, 0⟩, ⟨24786787378203385, 10⟩, ⟨35980372252303239, 17⟩, ⟨0, 0⟩, ⟨24786787378203385, 10⟩, ⟨35980372252303239, 17⟩),
  (⟨24624648398393393, 10⟩, ⟨55997640592440356, 17⟩, ⟨0, 0⟩, ⟨24624648398393393, 10⟩, ⟨55997640592440356, 17⟩, ⟨0, 0⟩, ⟨24624648398393393, 10⟩, ⟨55997640592440356, 17⟩),
  (⟨24878966155048767, 10⟩, ⟨12541296852165085, 17⟩, ⟨0, 0⟩, ⟨24878966155048767, 10⟩, ⟨12541296852165085, 17⟩, ⟨0, 0⟩, ⟨24878966155048767, 10⟩, ⟨12541296852165085, 17⟩),
  (⟨24724380440225713, 10⟩, ⟨75447517532599084, 17⟩, ⟨0, 0⟩, ⟨24724380440225713, 10⟩, ⟨75447517532599084, 17⟩, ⟨0, 0⟩, ⟨24724380440225713, 10⟩, ⟨75447517532599084, 17⟩),
  (⟨24857675600199574, 10⟩, ⟨24188687997067226, 17⟩, ⟨0, 0⟩, ⟨24857675600199574, 10⟩, ⟨24188687997067226, 17⟩, ⟨0, 0⟩, ⟨24857675600199574, 10⟩, ⟨24188687997067226, 17⟩),
  (⟨24676639646183592, 10⟩, ⟨12699592826396866, 17⟩, ⟨0, 0⟩, ⟨24676639646183592, 10⟩, ⟨12699592826396866, 17⟩, ⟨0, 0⟩, ⟨24676639646183592, 10⟩, ⟨12699592826396866, 17⟩),
  (⟨24830738008025223, 10⟩, ⟨60343001498433368, 17⟩, ⟨0, 0⟩, ⟨24830738008025223, 10⟩, ⟨60343001498433368, 17⟩, ⟨0, 0⟩, ⟨24830738008025223, 10⟩, ⟨60343001498433368, 17⟩),
  (⟨24637928909316231, 10⟩, ⟨97992795888304807, 17⟩, ⟨0, 0⟩, ⟨24637928909316231, 10⟩, ⟨97992795888304807, 17⟩, ⟨0, 0⟩, ⟨24637928909316231, 10⟩, ⟨97992795888304807, 17⟩),
  (⟨24548358559787315, 10⟩, ⟨35804079004340816, 17⟩, ⟨0, 0⟩, ⟨24548358559787315, 10⟩, ⟨35804079004340816, 17⟩, ⟨0, 0⟩, ⟨24548358559787315, 10⟩, ⟨35804079004340816, 17⟩),
  (⟨24756798088020897, 10⟩, ⟨56629013937521333, 17⟩, ⟨0, 0⟩, ⟨24756798088020897, 10⟩, ⟨56629013937521333, 17⟩, ⟨0, 0⟩, ⟨24756798088020897, 10⟩, ⟨56629013937521333, 17⟩),
  (⟨24719710297865681, 10⟩, ⟨26355667953411477, 17⟩, ⟨0, 0⟩, ⟨24719710297865681, 10⟩, ⟨26355667953411477, 17⟩, ⟨0, 0⟩, ⟨24719710297865681, 10⟩, ⟨26355667953411477, 17⟩),
  (⟨24697556228964259, 10⟩, ⟨92402007178772394, 17⟩, ⟨0, 0⟩, ⟨24697556228964259, 10⟩, ⟨92402007178772394, 17⟩, ⟨0, 0⟩, ⟨24697556228964259, 10⟩, ⟨92402007178772394, 17⟩),
  (⟨24778920266620740, 10⟩, ⟨73490449083098863, 17⟩, ⟨0, 0⟩, ⟨24778920266620740, 10⟩, ⟨73490449083098863, 17⟩, ⟨0, 0⟩, ⟨24778920266620740, 10⟩, ⟨73490449083098863, 17⟩),
  (⟨24540690791372489, 10⟩, ⟨94983076592850813, 17⟩, ⟨0, 0⟩, ⟨24540690791372489, 10⟩, ⟨94983076592850813, 17⟩, ⟨0, 0⟩, ⟨24540690791372489, 10⟩, ⟨94983076592850813, 17⟩),
  (⟨24708504003942111, 10⟩, ⟨45788663606355318, 17⟩, ⟨0, 0⟩, ⟨24708504003942111, 10⟩, ⟨45788663606355318, 17⟩, ⟨0, 0⟩, ⟨24708504003942111, 10⟩, ⟨45788663606355318, 17⟩),
  (⟨24560331924848920, 10⟩, ⟨86309454254627060, 17⟩, ⟨0, 0⟩, ⟨24560331924848920, 10⟩, ⟨86309454254627060, 17⟩, ⟨0, 0⟩, ⟨24560331924848920, 10⟩, ⟨86309454254627060, 17⟩),
  (⟨24690476193177938, 10⟩, ⟨49878284545013796, 17⟩, ⟨0, 0⟩, ⟨24690476193177938, 10⟩, ⟨49878284545013796, 17⟩, ⟨0, 0⟩, ⟨24690476193177938, 10⟩, ⟨49878284545013796, 17⟩),
  (⟨24839503483690489, 10⟩, ⟨74806813319410848, 17⟩, ⟨0, 0⟩, ⟨24839503483690489, 10⟩, ⟨74806813319410848, 17⟩, ⟨0, 0⟩, ⟨24839503483690489, 10⟩, ⟨74806813319410848, 17⟩),
  (⟨24570801126058763, 10⟩, ⟨67839959777141678, 17⟩, ⟨0, 0⟩, ⟨24570801126058763, 10⟩, ⟨67839959777141678, 17⟩, ⟨0, 0⟩, ⟨24570801126058763, 10⟩, ⟨67839959777141678, 17⟩),
  (⟨24553408540635048, 10⟩, ⟨86861058424239346, 17⟩, ⟨0, 0⟩, ⟨24553408540635048, 10⟩, ⟨86861058424239346, 17⟩, ⟨0, 0⟩, ⟨24553408540635048, 10⟩, ⟨86861058424239346, 17⟩),
  (⟨24672701167497183, 10⟩, ⟨41300402968792083, 17⟩, ⟨0, 0⟩, ⟨24672701167497183, 10⟩, ⟨41300402968792083, 17⟩, ⟨0, 0⟩, ⟨24672701167497183, 10⟩, ⟨41300402968792083, 17⟩),
  (⟨24710355254936661, 10⟩, ⟨21387592146652434, 17⟩, ⟨0, 0⟩, ⟨24710355254936661, 10⟩, ⟨21387592146652434, 17⟩, ⟨0, 0⟩, ⟨24710355254936661, 10⟩, ⟨21387592146652434, 17⟩),
  (⟨24541629561858042, 10⟩, ⟨39544087024041430, 17⟩, ⟨0, 0⟩, ⟨24541629561858042, 10⟩, ⟨39544087024041430, 17⟩, ⟨0, 0⟩, ⟨24541629561858042, 10⟩, ⟨39544087024041430, 17⟩),
  (⟨24542256174052791, 10⟩, ⟨63149982314506858, 17⟩, ⟨0, 0⟩, ⟨24542256174052791, 10⟩, ⟨63149982314506858, 17⟩, ⟨0, 0⟩, ⟨24542256174052791, 10⟩, ⟨63149982314506858, 17⟩),
  (⟨24581622635031440, 10⟩, ⟨62003869473010398, 17⟩, ⟨0, 0⟩, ⟨24581622635031440, 10⟩, ⟨62003869473010398, 17⟩, ⟨0, 0⟩, ⟨24581622635031440, 10⟩, ⟨62003869473010398, 17⟩),
  (⟨24730366587888170, 10⟩, ⟨30630136863418800, 17⟩, ⟨0, 0⟩, ⟨24730366587888170, 10⟩, ⟨30630136863418800, 17⟩, ⟨0, 0⟩, ⟨24730366587888170, 10⟩, ⟨30630136863418800, 17⟩),
  (⟨24717897729284437, 10⟩, ⟨67065392303568816, 17⟩, ⟨0, 0⟩, ⟨24717897729284437, 10⟩, ⟨67065392303568816, 17⟩, ⟨0, 0⟩, ⟨24717897729284437, 10⟩, ⟨67065392303568816, 17⟩),
  (⟨24854807698279060, 10⟩, ⟨46810275173336602, 17⟩, ⟨0, 0⟩, ⟨24854807698279060, 10⟩, ⟨46810275173336602, 17⟩, ⟨0, 0⟩, ⟨24854807698279060, 10⟩, ⟨46810275173336602, 17⟩),
  (⟨24649673870093734, 10⟩, ⟨19282240411962037, 17⟩, ⟨0, 0⟩, ⟨24649673870093734, 10⟩, ⟨19282240411962037, 17⟩, ⟨0, 0⟩, ⟨24649673870093734, 10⟩, ⟨19282240411962037, 17⟩),
  (⟨24727013536136993, 10⟩, ⟨75474732639175024, 17⟩, ⟨0, 0⟩, ⟨24727013536136993, 10⟩, ⟨75474732639175024, 17⟩, ⟨0, 0⟩, ⟨24727013536136993, 10⟩, ⟨75474732639175024, 17⟩),
  (⟨24745089634926063, 10⟩, ⟨57691548926446068, 17⟩, ⟨0, 0⟩, ⟨24745089634926063, 10⟩, ⟨57691548926446068, 17⟩, ⟨0, 0⟩, ⟨24745089634926063, 10⟩, ⟨57691548926446068, 17⟩),
  (⟨24586863408195749, 10⟩, ⟨14801547198483478, 18⟩, ⟨0, 0⟩, ⟨24586863408195749, 10⟩, ⟨14801547198483478, 18⟩, ⟨0, 0⟩, ⟨24586863408195749, 10⟩, ⟨14801547198483478, 18⟩),
  (⟨24631772168149999, 10⟩, ⟨33011805847186326, 17⟩, ⟨0, 0⟩, ⟨24631772168149999, 10⟩, ⟨33011805847186326, 17⟩, ⟨0, 0⟩, ⟨24631772168149999, 10⟩, ⟨33011805847186326, 17⟩),
  (⟨24861371395520065, 10⟩, ⟨68395010088459618, 17⟩, ⟨0, 0⟩, ⟨24861371395520065, 10⟩, ⟨68395010088459618, 17⟩, ⟨0, 0⟩, ⟨24861371395520065, 10⟩, ⟨68395010088459618, 17⟩),
  (⟨24849871175122242, 10⟩, ⟨23055075781023382, 17⟩, ⟨0, 0⟩, ⟨24849871175122242, 10⟩, ⟨23055075781023382, 17⟩, ⟨0, 0⟩, ⟨24849871175122242, 10⟩, ⟨23055075781023382, 17⟩),
  (⟨24812807540121307, 10⟩, ⟨40176566251674606, 17⟩, ⟨0, 0⟩, ⟨24812807540121307, 10⟩, ⟨40176566251674606, 17⟩, ⟨0, 0⟩, ⟨24812807540121307, 10⟩, ⟨40176566251674606, 17⟩),
  (⟨24611898736305009, 10⟩, ⟨86859925331839538, 17⟩, ⟨0, 0⟩, ⟨24611898736305009, 10⟩, ⟨86859925331839538, 17⟩, ⟨0, 0⟩, ⟨24611898736305009, 10⟩, ⟨86859925331839538, 17⟩),
  (⟨24847536928039226, 10⟩, ⟨61466096473554943, 17⟩, ⟨0, 0⟩, ⟨24847536928039226, 10⟩, ⟨61466096473554943, 17⟩, ⟨0, 0⟩, ⟨24847536928039226, 10⟩, ⟨61466096473554943, 17⟩),
  (⟨24522660411077472, 10⟩, ⟨79746427427960076, 17⟩, ⟨0, 0⟩, ⟨24522660411077472, 10⟩, ⟨79746427427960076, 17⟩, ⟨0, 0⟩, ⟨24522660411077472, 10⟩, ⟨79746427427960076, 17⟩),
  (⟨24849940015958361, 10⟩, ⟨35956972639226303, 17⟩, ⟨0, 0⟩, ⟨24849940015958361, 10⟩, ⟨35956972639226303, 17⟩, ⟨0, 0⟩, ⟨24849940015958361, 10⟩, ⟨35956972639226303, 17⟩),
  (⟨24877938512298316, 10⟩, ⟨12473089939187743, 17⟩, ⟨0, 0⟩, ⟨24877938512298316, 10⟩, ⟨12473089939187743, 17⟩, ⟨0, 0⟩, ⟨24877938512298316, 10⟩, ⟨12473089939187743, 17⟩),
  (⟨24652877758154734, 10⟩, ⟨62965101225263220, 18⟩, ⟨0, 0⟩, ⟨24652877758154734, 10⟩, ⟨62965101225263220, 18⟩, ⟨0, 0⟩, ⟨24652877758154734, 10⟩, ⟨62965101225263220, 18⟩),
  (⟨24534719093877431, 10⟩, ⟨69619938497297751, 17⟩, ⟨0, 0⟩, ⟨24534719093877431, 10⟩, ⟨69619938497297751, 17⟩, ⟨0, 0⟩, ⟨24534719093877431, 10⟩, ⟨69619938497297751, 17⟩),
  (⟨24736162662811875, 10⟩, ⟨78918546863052552, 18⟩, ⟨0, 0⟩, ⟨24736162662811875, 10⟩, ⟨78918546863052552, 18⟩, ⟨0, 0⟩, ⟨24736162662811875, 10⟩, ⟨78918546863052552, 18⟩),
  (⟨24655776209905981, 10⟩, ⟨39034437649412734, 17⟩, ⟨0, 0⟩, ⟨24655776209905981, 10⟩, ⟨39034437649412734, 17⟩, ⟨0, 0⟩, ⟨24655776209905981, 10⟩, ⟨39034437649412734, 17⟩),
  (⟨24876660194653040, 10⟩, ⟨64763023893377636, 17⟩, ⟨0, 0⟩, ⟨24876660194653040, 10⟩, ⟨64763023893377636, 17⟩, ⟨0, 0⟩, ⟨24876660194653040, 10⟩, ⟨64763023893377636, 17⟩),
  (⟨24844552835261165, 10⟩, ⟨29850847449207296, 18⟩, ⟨0, 0⟩, ⟨24844552835261165, 10⟩, ⟨29850847449207296, 18⟩, ⟨0, 0⟩, ⟨24844552835261165, 10⟩, ⟨29850847449207296, 18⟩),
  (⟨24777967738281707, 10⟩, ⟨83308109192284052, 17⟩, ⟨0, 0⟩, ⟨24777967738281707, 10⟩, ⟨83308109192284052, 17⟩, ⟨0, 0⟩, ⟨24777967738281707, 10⟩, ⟨83308109192284052, 17⟩),
  (⟨24520745585259669, 10⟩, ⟨95753537978605407, 17⟩, ⟨0, 0⟩, ⟨24520745585259669, 10⟩, ⟨95753537978605407, 17⟩, ⟨0, 0⟩, ⟨24520745585259669, 10⟩, ⟨95753537978605407, 17⟩),
  (⟨24666717015606072, 10⟩, ⟨61748279297955044, 17⟩, ⟨0, 0⟩, ⟨24666717015606072, 10⟩, ⟨61748279297955044, 17⟩, ⟨0, 0⟩, ⟨24666717015606072, 10⟩, ⟨61748279297955044, 17⟩),
  (⟨24755677470394233, 10⟩, ⟨70298561023879036, 17⟩, ⟨0, 0⟩, ⟨24755677470394233, 10⟩, ⟨70298561023879036, 17⟩, ⟨0, 0⟩, ⟨24755677470394233, 10⟩, ⟨70298561023879036, 17⟩),
  (⟨24844645650747665, 10⟩, ⟨43441836895121622, 17⟩, ⟨0, 0⟩, ⟨24844645650747665, 10⟩, ⟨43441836895121622, 17⟩, ⟨0, 0⟩, ⟨24844645650747665, 10⟩, ⟨43441836895121622, 17⟩),
  (⟨24582572037376082, 10⟩, ⟨16695149914895846, 18⟩, ⟨0, 0⟩, ⟨24582572037376082, 10⟩, ⟨16695149914895846, 18⟩, ⟨0, 0⟩, ⟨24582572037376082, 10⟩, ⟨16695149914895846, 18⟩),
  (⟨24801753218751475, 10⟩, ⟨88847219249614473, 17⟩, ⟨0, 0⟩, ⟨24801753218751475, 10⟩, ⟨88847219249614473, 17⟩, ⟨0, 0⟩, ⟨24801753218751475, 10⟩, ⟨88847219249614473, 17⟩),
  (⟨24611361000823956, 10⟩, ⟨70465902415398152, 17⟩, ⟨0, 0⟩, ⟨24611361000823956, 10⟩, ⟨70465902415398152, 17⟩, ⟨0, 0⟩, ⟨24611361000823956, 10⟩, ⟨70465902415398152, 17⟩),
  (⟨24831960048160348, 10⟩, ⟨71942909327813032, 17⟩, ⟨0, 0⟩, ⟨24831960048160348, 10⟩, ⟨71942909327813032, 17⟩, ⟨0, 0⟩, ⟨24831960048160348, 10⟩, ⟨71942909327813032, 17⟩),
  (⟨24528569734075530, 10⟩, ⟨71789146726387443, 17⟩, ⟨0, 0⟩, ⟨24528569734075530, 10⟩, ⟨71789146726387443, 17⟩, ⟨0, 0⟩, ⟨24528569734075530, 10⟩, ⟨71789146726387443, 17⟩),
  (⟨24741580770127135, 10⟩, ⟨36089103188378235, 17⟩, ⟨0, 0⟩, ⟨24741580770127135, 10⟩, ⟨36089103188378235, 17⟩, ⟨0, 0⟩, ⟨24741580770127135, 10⟩, ⟨36089103188378235, 17⟩),
  (⟨24579217847049362, 10⟩, ⟨66202156797804235, 17⟩, ⟨0, 0⟩, ⟨24579217847049362, 10⟩, ⟨66202156797804235, 17⟩, ⟨0, 0⟩, ⟨24579217847049362, 10⟩, ⟨66202156797804235, 17⟩),
  (⟨24788240526525741, 10⟩, ⟨41915795889357488, 17⟩, ⟨0, 0⟩, ⟨24788240526525741, 10⟩, ⟨41915795889357488, 17⟩, ⟨0, 0⟩, ⟨24788240526525741, 10⟩, ⟨41915795889357488, 17⟩),
  (⟨24629642472480182, 10⟩, ⟨57607851586469061, 17⟩, ⟨0, 0⟩, ⟨24629642472480182, 10⟩, ⟨57607851586469061, 17⟩, ⟨0, 0⟩, ⟨24629642472480182, 10⟩, ⟨57607851586469061, 17⟩),
  (⟨24753263987623802, 10⟩, ⟨55779750900955105, 18⟩, ⟨0, 0⟩, ⟨24753263987623802, 10⟩, ⟨55779750900955105, 18⟩, ⟨0, 0⟩, ⟨24753263987623802, 10⟩, ⟨55779750900955105, 18⟩),
  (⟨24804046695376504, 10⟩, ⟨99007472414058895, 17⟩, ⟨0, 0⟩, ⟨24804046695376504, 10⟩, ⟨99007472414058895, 17⟩, ⟨0, 0⟩, ⟨24804046695376504, 10⟩, ⟨99007472414058895, 17⟩),
  (⟨24624627514349148, 10⟩, ⟨16866557468647592, 17⟩, ⟨0, 0⟩, ⟨24624627514349148, 10⟩, ⟨16866557468647592, 17⟩, ⟨0, 0⟩, ⟨24624627514349148, 10⟩, ⟨16866557468647592, 17⟩),
  (⟨24541444284734991, 10⟩, ⟨31223406437581769, 17⟩, ⟨0, 0⟩, ⟨24541444284734991, 10⟩, ⟨31223406437581769, 17⟩, ⟨0, 0⟩, ⟨24541444284734991, 10⟩, ⟨31223406437581769, 17⟩),
  (⟨24561666684237905, 10⟩, ⟨26286333796517170, 17⟩, ⟨0, 0⟩, ⟨24561666684237905, 10⟩, ⟨26286333796517170, 17⟩, ⟨0, 0⟩, ⟨24561666684237905, 10⟩, ⟨26286333796517170, 17⟩),
  (⟨24621643103609812, 10⟩, ⟨65583929683037612, 17⟩, ⟨0, 0⟩, ⟨24621643103609812, 10⟩, ⟨65583929683037612, 17⟩, ⟨0, 0⟩, ⟨24621643103609812, 10⟩, ⟨65583929683037612, 17⟩),
  (⟨24717548217787752, 10⟩, ⟨45553764556311993, 19⟩, ⟨0, 0⟩, ⟨24717548217787752, 10⟩, ⟨45553764556311993, 19⟩, ⟨0, 0⟩, ⟨24717548217787752, 10⟩, ⟨45553764556311993, 19⟩),
  (⟨24529446028981660, 10⟩, ⟨63629809837405027, 17⟩, ⟨0, 0⟩, ⟨24529446028981660, 10⟩, ⟨63629809837405027, 17⟩, ⟨0, 0⟩, ⟨24529446028981660, 10⟩, ⟨63629809837405027, 17⟩),
  (⟨24595046400913564, 10⟩, ⟨55502964807714095, 17⟩, ⟨0, 0⟩, ⟨24595046400913564, 10⟩, ⟨55502964807714095, 17⟩, ⟨0, 0⟩, ⟨24595046400913564, 10⟩, ⟨55502964807714095, 17⟩),
  (⟨24869804159045126, 10⟩, ⟨66655434791989920, 17⟩, ⟨0, 0⟩, ⟨24869804159045126, 10⟩, ⟨66655434791989920, 17⟩, ⟨0, 0⟩, ⟨24869804159045126, 10⟩, ⟨66655434791989920, 17⟩),
  (⟨24734524191241870, 10⟩, ⟨32464030775757879, 17⟩, ⟨0, 0⟩, ⟨24734524191241870, 10⟩, ⟨32464030775757879, 17⟩, ⟨0, 0⟩, ⟨24734524191241870, 10⟩, ⟨32464030775757879, 17⟩),
  (⟨24772944755287338, 10⟩, ⟨98723819684548897, 17⟩, ⟨0, 0⟩, ⟨24772944755287338, 10⟩, ⟨98723819684548897, 17⟩, ⟨0, 0⟩, ⟨24772944755287338, 10⟩, ⟨98723819684548897, 17⟩),
  (⟨24703722002964923, 10⟩, ⟨48881655853258088, 17⟩, ⟨0, 0⟩, ⟨24703722002964923, 10⟩, ⟨48881655853258088, 17⟩, ⟨0, 0⟩, ⟨24703722002964923, 10⟩, ⟨48881655853258088, 17⟩),
  (⟨24670865570484241, 10⟩, ⟨34149630691177979, 17⟩, ⟨0, 0⟩, ⟨24670865570484241, 10⟩, ⟨34149630691177979, 17⟩, ⟨0, 0⟩, ⟨24670865570484241, 10⟩, ⟨34149630691177979, 17⟩),
  (⟨24680378948108214, 10⟩, ⟨64266831923579248, 17⟩, ⟨0, 0⟩, ⟨24680378948108214, 10⟩, ⟨64266831923579248, 17⟩, ⟨0, 0⟩, ⟨24680378948108214, 10⟩, ⟨64266831923579248, 17⟩),
  (⟨24638911206939449, 10⟩, ⟨63455281818127385, 17⟩, ⟨0, 0⟩, ⟨24638911206939449, 10⟩, ⟨63455281818127385, 17⟩, ⟨0, 0⟩, ⟨24638911206939449, 10⟩, ⟨63455281818127385, 17⟩),
  (⟨24877796395092914, 10⟩, ⟨74528772820057787, 17⟩, ⟨0, 0⟩, ⟨24877796395092914, 10⟩, ⟨74528772820057787, 17⟩, ⟨0, 0⟩, ⟨24877796395092914, 10⟩, ⟨74528772820057787, 17⟩),
  (⟨24779468557708580, 10⟩, ⟨73524189346942659, 17⟩, ⟨0, 0⟩, ⟨24779468557708580, 10⟩, ⟨73524189346942659, 17⟩, ⟨0, 0⟩, ⟨24779468557708580, 10⟩, ⟨73524189346942659, 17⟩),
  (⟨24815661211307431, 10⟩, ⟨15165510317892528, 17⟩, ⟨0, 0⟩, ⟨24815661211307431, 10⟩, ⟨15165510317892528, 17⟩, ⟨0, 0⟩, ⟨24815661211307431, 10⟩, ⟨15165510317892528, 17⟩),
  (⟨24629734708176120, 10⟩, ⟨39959376576762962, 17⟩, ⟨0, 0⟩, ⟨24629734708176120, 10⟩, ⟨39959376576762962, 17⟩, ⟨0, 0⟩, ⟨24629734708176120, 10⟩, ⟨39959376576762962, 17⟩),
  (⟨24606088358102771, 10⟩, ⟨14792564244349937, 18⟩, ⟨0, 0⟩, ⟨24606088358102771, 10⟩, ⟨14792564244349937, 18⟩, ⟨0, 0⟩, ⟨24606088358102771, 10⟩, ⟨14792564244349937, 18⟩),
  (⟨24688018107116264, 10⟩, ⟨34650901800336154, 17⟩, ⟨0, 0⟩, ⟨24688018107116264, 10⟩, ⟨34650901800336154, 17⟩, ⟨0, 0⟩, ⟨24688018107116264, 10⟩, ⟨34650901800336154, 17⟩),
  (⟨24575878892389620, 10⟩, ⟨11890968620692544, 17⟩, ⟨0, 0⟩, ⟨24575878892389620, 10⟩, ⟨11890968620692544, 17⟩, ⟨0, 0⟩, ⟨24575878892389620, 10⟩, ⟨11890968620692544, 17⟩),
  (⟨24757576796381841, 10⟩, ⟨61250933527505091, 17⟩, ⟨0, 0⟩, ⟨24757576796381841, 10⟩, ⟨61250933527505091, 17⟩, ⟨0, 0⟩, ⟨24757576796381841, 10⟩, ⟨61250933527505091, 17⟩),
  (⟨24581551463283468, 10⟩, ⟨92468065650371667, 17⟩, ⟨0, 0⟩, ⟨24581551463283468, 10⟩, ⟨92468065650371667, 17⟩, ⟨0, 0⟩, ⟨24581551463283468, 10⟩, ⟨92468065650371667, 17⟩),
  (⟨24697181013454609, 10⟩, ⟨23808914908858836, 17⟩, ⟨0, 0⟩, ⟨24697181013454609, 10⟩, ⟨23808914908858836, 17⟩, ⟨0, 0⟩, ⟨24697181013454609, 10⟩, ⟨23808914908858836, 17⟩),
  (⟨24693680297298208, 10⟩, ⟨80742813455038365, 17⟩, ⟨0, 0⟩, ⟨24693680297298208, 10⟩, ⟨80742813455038365, 17⟩, ⟨0, 0⟩, ⟨24693680297298208, 10⟩, ⟨80742813455038365, 17⟩),
  (⟨24869144680787469, 10⟩, ⟨63715512464973167, 17⟩, ⟨0, 0⟩, ⟨24869144680787469, 10⟩, ⟨63715512464973167, 17⟩, ⟨0, 0⟩, ⟨24869144680787469, 10⟩, ⟨63715512464973167, 17⟩),
  (⟨24755655754105765, 10⟩, ⟨24406392050156389, 17⟩, ⟨0, 0⟩, ⟨24755655754105765, 10⟩, ⟨24406392050156389, 17⟩, ⟨0, 0⟩, ⟨24755655754105765, 10⟩, ⟨24406392050156389, 17⟩),
  (⟨24755786575786998, 10⟩, ⟨34261693841884600, 17⟩, ⟨0, 0⟩, ⟨24755786575786998, 10⟩, ⟨34261693841884600, 17⟩, ⟨0, 0⟩, ⟨24755786575786998, 10⟩, ⟨34261693841884600, 17⟩),
  (⟨24703902019096264, 10⟩, ⟨63928295174059846, 18⟩, ⟨0, 0⟩, ⟨24703902019096264, 10⟩, ⟨63928295174059846, 18⟩, ⟨0, 0⟩, ⟨24703902019096264, 10⟩, ⟨63928295174059846, 18⟩),
  (⟨24745540441984432, 10⟩, ⟨45952455509999168, 17⟩, ⟨0, 0⟩, ⟨24745540441984432, 10⟩, ⟨45952455509999168, 17⟩, ⟨0, 0⟩, ⟨24745540441984432, 10⟩, ⟨45952455509999168, 17⟩),
  (⟨24707663529579756, 10⟩, ⟨34477919689938297, 18⟩, ⟨0, 0⟩, ⟨24707663529579756, 10⟩, ⟨34477919689938297, 18⟩, ⟨0, 0⟩, ⟨24707663529579756, 10⟩, ⟨34477919689938297, 18⟩),
  (⟨24768814975910089, 10⟩, ⟨35215942544298495, 17⟩, ⟨0, 0⟩, ⟨24768814975910089, 10⟩, ⟨35215942544298495, 17⟩, ⟨0, 0⟩, ⟨24768814975910089, 10⟩, ⟨35215942544298495, 17⟩)]

/-- Entries 600 to 699. -/
def C2t_6 : List (Dec × Dec × Dec × Dec × Dec × Dec × Dec × Dec) := [
  (⟨24771563675420894, 10⟩, ⟨40565992296353914, 17⟩, ⟨0, 0⟩, ⟨24771563675420894, 10⟩, ⟨40565992296353914, 17⟩, ⟨0, 0⟩, ⟨24771563675420894, 10⟩, ⟨40565992296353914, 17⟩),
  (⟨24832399692921555, 10⟩, ⟨57758281122644473, 17⟩, ⟨0, 0⟩, ⟨24832399692921555, 10⟩, ⟨57758281122644473, 17⟩, ⟨0, 0⟩, ⟨24832399692921555, 10⟩, ⟨57758281122644473, 17⟩),
  (⟨24708838262312026, 10⟩, ⟨35830629263011027, 17⟩, ⟨0, 0⟩, ⟨24708838262312026, 10⟩, ⟨35830629263011027, 17⟩, ⟨0, 0⟩, ⟨24708838262312026, 10⟩, ⟨35830629263011027, 17⟩),
  (⟨24690052341346680, 10⟩, ⟨14270792898429807, 19⟩, ⟨0, 0⟩, ⟨24690052341346680, 10⟩, ⟨14270792898429807, 19⟩, ⟨0, 0⟩, ⟨24690052341346680, 10⟩, ⟨14270792898429807, 19⟩),
  (⟨24712867302642898, 10⟩, ⟨45908019865138006, 17⟩, ⟨0, 0⟩, ⟨24712867302642898, 10⟩, ⟨45908019865138006, 17⟩, ⟨0, 0⟩, ⟨24712867302642898, 10⟩, ⟨45908019865138006, 17⟩),
  (⟨24851004655906800, 10⟩, ⟨46110338071993384, 17⟩, ⟨0, 0⟩, ⟨24851004655906800, 10⟩, ⟨46110338071993384, 17⟩, ⟨0, 0⟩, ⟨24851004655906800, 10⟩, ⟨46110338071993384, 17⟩),
  (⟨24834045210090852, 10⟩, ⟨75256590966908676, 17⟩, ⟨0, 0⟩, ⟨24834045210090852, 10⟩, ⟨75256590966908676, 17⟩, ⟨0, 0⟩, ⟨24834045210090852, 10⟩, ⟨75256590966908676, 17⟩),
  (⟨24541428847772400, 10⟩, ⟨63894348474156770, 17⟩, ⟨0, 0⟩, ⟨24541428847772400, 10⟩, ⟨63894348474156770, 17⟩, ⟨0, 0⟩, ⟨24541428847772400, 10⟩, ⟨63894348474156770, 17⟩),
  (⟨24689258940121126, 10⟩, ⟨25849357769118519, 17⟩, ⟨0, 0⟩, ⟨24689258940121126, 10⟩, ⟨25849357769118519, 17⟩, ⟨0, 0⟩, ⟨24689258940121126, 10⟩, ⟨25849357769118519, 17⟩),
  (⟨24517282909107730, 10⟩, ⟨72490881748296387, 17⟩, ⟨0, 0⟩, ⟨24517282909107730, 10⟩, ⟨72490881748296387, 17⟩, ⟨0, 0⟩, ⟨24517282909107730, 10⟩, ⟨72490881748296387, 17⟩),
  (⟨24863041186012551, 10⟩, ⟨37668277652420412, 17⟩, ⟨0, 0⟩, ⟨24863041186012551, 10⟩, ⟨37668277652420412, 17⟩, ⟨0, 0⟩, ⟨24863041186012551, 10⟩, ⟨37668277652420412, 17⟩),
  (⟨24547213174657309, 10⟩, ⟨24473927347763647, 17⟩, ⟨0, 0⟩, ⟨24547213174657309, 10⟩, ⟨24473927347763647, 17⟩, ⟨0, 0⟩, ⟨24547213174657309, 10⟩, ⟨24473927347763647, 17⟩),
  (⟨24702345266878852, 10⟩, ⟨92172003176835637, 17⟩, ⟨0, 0⟩, ⟨24702345266878852, 10⟩, ⟨92172003176835637, 17⟩, ⟨0, 0⟩, ⟨24702345266878852, 10⟩, ⟨92172003176835637, 17⟩),
  (⟨24823411805504747, 10⟩, ⟨86431245816100100, 17⟩, ⟨0, 0⟩, ⟨24823411805504747, 10⟩, ⟨86431245816100100, 17⟩, ⟨0, 0⟩, ⟨24823411805504747, 10⟩, ⟨86431245816100100, 17⟩),
  (⟨24837053223043815, 10⟩, ⟨38778101092465667, 17⟩, ⟨0, 0⟩, ⟨24837053223043815, 10⟩, ⟨38778101092465667, 17⟩, ⟨0, 0⟩, ⟨24837053223043815, 10⟩, ⟨38778101092465667, 17⟩),
  (⟨24693867070435304, 10⟩, ⟨56807131837514957, 17⟩, ⟨0, 0⟩, ⟨24693867070435304, 10⟩, ⟨56807131837514957, 17⟩, ⟨0, 0⟩, ⟨24693867070435304, 10⟩, ⟨56807131837514957, 17⟩),
  (⟨24580922123973267, 10⟩, ⟨42614732437840641, 17⟩, ⟨0, 0⟩, ⟨24580922123973267, 10⟩, ⟨42614732437840641, 17⟩, ⟨0, 0⟩, ⟨24580922123973267, 10⟩, ⟨42614732437840641, 17⟩),
  (⟨24835013277224922, 10⟩, ⟨71017095643365979, 17⟩, ⟨0, 0⟩, ⟨24835013277224922, 10⟩, ⟨71017095643365979, 17⟩, ⟨0, 0⟩, ⟨24835013277224922, 10⟩, ⟨71017095643365979, 17⟩),
  (⟨24810906355945473, 10⟩, ⟨79607607004673975, 17⟩, ⟨0, 0⟩, ⟨24810906355945473, 10⟩, ⟨79607607004673975, 17⟩, ⟨0, 0⟩, ⟨24810906355945473, 10⟩, ⟨79607607004673975, 17⟩),
  (⟨24827709514258313, 10⟩, ⟨93018339650535375, 17⟩, ⟨0, 0⟩, ⟨24827709514258313, 10⟩, ⟨93018339650535375, 17⟩, ⟨0, 0⟩, ⟨24827709514258313, 10⟩, ⟨93018339650535375, 17⟩),
  (⟨24796330681261374, 10⟩, ⟨30008916230295757, 17⟩, ⟨0, 0⟩, ⟨24796330681261374, 10⟩, ⟨30008916230295757, 17⟩, ⟨0, 0⟩, ⟨24796330681261374, 10⟩, ⟨30008916230295757, 17⟩),
  (⟨24703848998668063, 10⟩, ⟨84287770968339304, 17⟩, ⟨0, 0⟩, ⟨24703848998668063, 10⟩, ⟨84287770968339304, 17⟩, ⟨0, 0⟩, ⟨24703848998668063, 10⟩, ⟨84287770968339304, 17⟩),
  (⟨24783196008704500, 10⟩, ⟨51692755700925008, 17⟩, ⟨0, 0⟩, ⟨24783196008704500, 10⟩, ⟨51692755700925008, 17⟩, ⟨0, 0⟩, ⟨24783196008704500, 10⟩, ⟨51692755700925008, 17⟩),
  (⟨24805555763215329, 10⟩, ⟨68988335839442971, 17⟩, ⟨0, 0⟩, ⟨24805555763215329, 10⟩, ⟨68988335839442971, 17⟩, ⟨0, 0⟩, ⟨24805555763215329, 10⟩, ⟨68988335839442971, 17⟩),
  (⟨24727957756806850, 10⟩, ⟨56748557272515721, 17⟩, ⟨0, 0⟩, ⟨24727957756806850, 10⟩, ⟨56748557272515721, 17⟩, ⟨0, 0⟩, ⟨24727957756806850, 10⟩, ⟨56748557272515721, 17⟩),
  (⟨24596998148747305, 10⟩, ⟨25895300052815784, 17⟩, ⟨0, 0⟩, ⟨24596998148747305, 10⟩, ⟨25895300052815784, 17⟩, ⟨0, 0⟩, ⟨24596998148747305, 10⟩, ⟨25895300052815784, 17⟩),
  (⟨24540189389546178, 10⟩, ⟨38166800630375664, 17⟩, ⟨0, 0⟩, ⟨24540189389546178, 10⟩, ⟨38166800630375664, 17⟩, ⟨0, 0⟩, ⟨24540189389546178, 10⟩, ⟨38166800630375664, 17⟩),
  (⟨24539819716483559, 10⟩, ⟨83151992074786230, 17⟩, ⟨0, 0⟩, ⟨24539819716483559, 10⟩, ⟨83151992074786230, 17⟩, ⟨0, 0⟩, ⟨24539819716483559, 10⟩, ⟨83151992074786230, 17⟩),
  (⟨24737400244477941, 10⟩, ⟨59445918934385722, 17⟩, ⟨0, 0⟩, ⟨24737400244477941, 10⟩, ⟨59445918934385722, 17⟩, ⟨0, 0⟩, ⟨24737400244477941, 10⟩, ⟨59445918934385722, 17⟩),
  (⟨24722818040964156, 10⟩, ⟨57053838253172551, 17⟩, ⟨0, 0⟩, ⟨24722818040964156, 10⟩, ⟨57053838253172551, 17⟩, ⟨0, 0⟩, ⟨24722818040964156, 10⟩, ⟨57053838253172551, 17⟩),
  (⟨24874956262859642, 10⟩, ⟨47136706847792764, 17⟩, ⟨0, 0⟩, ⟨24874956262859642, 10⟩, ⟨47136706847792764, 17⟩, ⟨0, 0⟩, ⟨24874956262859642, 10⟩, ⟨47136706847792764, 17⟩),
  (⟨24520478666183664, 10⟩, ⟨50580355654203635, 17⟩, ⟨0, 0⟩, ⟨24520478666183664, 10⟩, ⟨50580355654203635, 17⟩, ⟨0, 0⟩, ⟨24520478666183664, 10⟩, ⟨50580355654203635, 17⟩),
  (⟨24570857391051212, 10⟩, ⟨51288086778002895, 18⟩, ⟨0, 0⟩, ⟨24570857391051212, 10⟩, ⟨51288086778002895, 18⟩, ⟨0, 0⟩, ⟨24570857391051212, 10⟩, ⟨51288086778002895, 18⟩),
  (⟨24790531716298475, 10⟩, ⟨35358741877876421, 17⟩, ⟨0, 0⟩, ⟨24790531716298475, 10⟩, ⟨35358741877876421, 17⟩, ⟨0, 0⟩, ⟨24790531716298475, 10⟩, ⟨35358741877876421, 17⟩),
  (⟨24707651094733244, 10⟩, ⟨67930797776947049, 17⟩, ⟨0, 0⟩, ⟨24707651094733244, 10⟩, ⟨67930797776947049, 17⟩, ⟨0, 0⟩, ⟨24707651094733244, 10⟩, ⟨67930797776947049, 17⟩),
  (⟨24617130834077266, 10⟩, ⟨58377773758949714, 17⟩, ⟨0, 0⟩, ⟨24617130834077266, 10⟩, ⟨58377773758949714, 17⟩, ⟨0, 0⟩, ⟨24617130834077266, 10⟩, ⟨58377773758949714, 17⟩),
  (⟨24809963913965854, 10⟩, ⟨42284522959636905, 17⟩, ⟨0, 0⟩, ⟨24809963913965854, 10⟩, ⟨42284522959636905, 17⟩, ⟨0, 0⟩, ⟨24809963913965854, 10⟩, ⟨42284522959636905, 17⟩),
  (⟨24585559019194236, 10⟩, ⟨66637830198669434, 17⟩, ⟨0, 0⟩, ⟨24585559019194236, 10⟩, ⟨66637830198669434, 17⟩, ⟨0, 0⟩, ⟨24585559019194236, 10⟩, ⟨66637830198669434, 17⟩),
  (⟨24671059128579395, 10⟩, ⟨90586657337986287, 17⟩, ⟨0, 0⟩, ⟨24671059128579395, 10⟩, ⟨90586657337986287, 17⟩, ⟨0, 0⟩, ⟨24671059128579395, 10⟩, ⟨90586657337986287, 17⟩),
  (⟨24847306270014620, 10⟩, ⟨33610045216520112, 18⟩, ⟨0, 0⟩, ⟨24847306270014620, 10⟩, ⟨33610045216520112, 18⟩, ⟨0, 0⟩, ⟨24847306270014620, 10⟩, ⟨33610045216520112, 18⟩),
  (⟨24718067196350819, 10⟩, ⟨16125796602968134, 17⟩, ⟨0, 0⟩, ⟨24718067196350819, 10⟩, ⟨16125796602968134, 17⟩, ⟨0, 0⟩, ⟨24718067196350819, 10⟩, ⟨16125796602968134, 17⟩),
  (⟨24548207586716469, 10⟩, ⟨68965656763885219, 19⟩, ⟨0, 0⟩, ⟨24548207586716469, 10⟩, ⟨68965656763885219, 19⟩, ⟨0, 0⟩, ⟨24548207586716469, 10⟩, ⟨68965656763885219, 19⟩),
  (⟨24556264206846487, 10⟩, ⟨68632744199480022, 17⟩, ⟨0, 0⟩, ⟨24556264206846487, 10⟩, ⟨68632744199480022, 17⟩, ⟨0, 0⟩, ⟨24556264206846487, 10⟩, ⟨68632744199480022, 17⟩),
  (⟨24759105204487075, 10⟩, ⟨97743391717939732, 17⟩, ⟨0, 0⟩, ⟨24759105204487075, 10⟩, ⟨97743391717939732, 17⟩, ⟨0, 0⟩, ⟨24759105204487075, 10⟩, ⟨97743391717939732, 17⟩),
  (⟨24730338846296342, 10⟩, ⟨73933074980089364, 17⟩, ⟨0, 0⟩, ⟨24730338846296342, 10⟩, ⟨73933074980089364, 17⟩, ⟨0, 0⟩, ⟨24730338846296342, 10⟩, ⟨73933074980089364, 17⟩),
  (⟨24639867251744140, 10⟩, ⟨98182317984317757, 19⟩, ⟨0, 0⟩, ⟨24639867251744140, 10⟩, ⟨98182317984317757, 19⟩, ⟨0, 0⟩, ⟨24639867251744140, 10⟩, ⟨98182317984317757, 19⟩),
  (⟨24693448814856592, 10⟩, ⟨47134913775649523, 17⟩, ⟨0, 0⟩, ⟨24693448814856592, 10⟩, ⟨47134913775649523, 17⟩, ⟨0, 0⟩, ⟨24693448814856592, 10⟩, ⟨47134913775649523, 17⟩),
  (⟨24700382713840487, 10⟩, ⟨89080720571983174, 17⟩, ⟨0, 0⟩, ⟨24700382713840487, 10⟩, ⟨89080720571983174, 17⟩, ⟨0, 0⟩, ⟨24700382713840487, 10⟩, ⟨89080720571983174, 17⟩),
  (⟨24695878130723834, 10⟩, ⟨93665242723828812, 17⟩, ⟨0, 0⟩, ⟨24695878130723834, 10⟩, ⟨93665242723828812, 17⟩, ⟨0, 0⟩, ⟨24695878130723834, 10⟩, ⟨93665242723828812, 17⟩),
  (⟨24824540592347858, 10⟩, ⟨44663149742074992, 17⟩, ⟨0, 0⟩, ⟨24824540592347858, 10⟩, ⟨44663149742074992, 17⟩, ⟨0, 0⟩, ⟨24824540592347858, 10⟩, ⟨44663149742074992, 17⟩),
  (⟨24739523845006470, 10⟩, ⟨19906828839727952, 17⟩, ⟨0, 0⟩, ⟨24739523845006470, 10⟩, ⟨19906828839727952, 17⟩, ⟨0, 0⟩, ⟨24739523845006470, 10⟩, ⟨19906828839727952, 17⟩),
  (⟨24584595686967843, 10⟩, ⟨77033242131894319, 17⟩, ⟨0, 0⟩, ⟨24584595686967843, 10⟩, ⟨77033242131894319, 17⟩, ⟨0, 0⟩, ⟨24584595686967843, 10⟩, ⟨77033242131894319, 17⟩),
  (⟨24600892428266499, 10⟩, ⟨73036214211974049, 17⟩, ⟨0, 0⟩, ⟨24600892428266499, 10⟩, ⟨73036214211974049, 17⟩, ⟨0, 0⟩, ⟨24600892428266499, 10⟩, ⟨73036214211974049, 17⟩),
  (⟨24701031917543327, 10⟩, ⟨53570139435086694, 17⟩, ⟨0, 0⟩, ⟨24701031917543327, 10⟩, ⟨53570139435086694, 17⟩, ⟨0, 0⟩, ⟨24701031917543327, 10⟩, ⟨53570139435086694, 17⟩),
  (⟨24666314275970776, 10⟩, ⟨87375848667101597, 17⟩, ⟨0, 0⟩, ⟨24666314275970776, 10⟩, ⟨87375848667101597, 17⟩, ⟨0, 0⟩, ⟨24666314275970776, 10⟩, ⟨87375848667101597, 17⟩),
  (⟨24680290811092649, 10⟩, ⟨23220436394951482, 17⟩, ⟨0, 0⟩, ⟨24680290811092649, 10⟩, ⟨23220436394951482, 17⟩, ⟨0, 0⟩, ⟨24680290811092649, 10⟩, ⟨23220436394951482, 17⟩),
  (⟨24831299488337003, 10⟩, ⟨97102251840222731, 17⟩, ⟨0, 0⟩, ⟨24831299488337003, 10⟩, ⟨97102251840222731, 17⟩, ⟨0, 0⟩, ⟨24831299488337003, 10⟩, ⟨97102251840222731, 17⟩),
  (⟨24747323967804117, 10⟩, ⟨14732895754101138, 17⟩, ⟨0, 0⟩, ⟨24747323967804117, 10⟩, ⟨14732895754101138, 17⟩, ⟨0, 0⟩, ⟨24747323967804117, 10⟩, ⟨14732895754101138, 17⟩),
  (⟨24858040233820355, 10⟩, ⟨55051228947461017, 17⟩, ⟨0, 0⟩, ⟨24858040233820355, 10⟩, ⟨55051228947461017, 17⟩, ⟨0, 0⟩, ⟨24858040233820355, 10⟩, ⟨55051228947461017, 17⟩),
  (⟨24849243700857442, 10⟩, ⟨26750909288426905, 17⟩, ⟨0, 0⟩, ⟨24849243700857442, 10⟩, ⟨26750909288426905, 17⟩, ⟨0, 0⟩, ⟨24849243700857442, 10⟩, ⟨26750909288426905, 17⟩),
  (⟨24539116699179965, 10⟩, ⟨32854509558867417, 17⟩, ⟨0, 0⟩, ⟨24539116699179965, 10⟩, ⟨32854509558867417, 17⟩, ⟨0, 0⟩, ⟨24539116699179965, 10⟩, ⟨32854509558867417, 17⟩),
  (⟨24717054809906576, 10⟩, ⟨66454536521385743, 17⟩, ⟨0, 0⟩, ⟨24717054809906576, 10⟩, ⟨66454536521385743, 17⟩, ⟨0, 0⟩, ⟨24717054809906576, 10⟩, ⟨66454536521385743, 17⟩),
  (⟨24734091946942848, 10⟩, ⟨81161060313022693, 17⟩, ⟨0, 0⟩, ⟨24734091946942848, 10⟩, ⟨81161060313022693, 17⟩, ⟨0, 0⟩, ⟨24734091946942848, 10⟩, ⟨81161060313022693, 17⟩),
  (⟨24699078781891037, 10⟩, ⟨24679989191627660, 17⟩, ⟨0, 0⟩, ⟨24699078781891037, 10⟩, ⟨24679989191627660, 17⟩, ⟨0, 0⟩, ⟨24699078781891037, 10⟩, ⟨24679989191627660, 17⟩),
  (⟨24862708976277034, 10⟩, ⟨64250238564141349, 17⟩, ⟨0, 0⟩, ⟨24862708976277034, 10⟩, ⟨64250238564141349, 17⟩, ⟨0, 0⟩, ⟨24862708976277034, 10⟩, ⟨64250238564141349, 17⟩),
  (⟨24847716090263412, 10⟩, ⟨92430965954523792, 17⟩, ⟨0, 0⟩, ⟨24847716090263412, 10⟩, ⟨92430965954523792, 17⟩, ⟨0, 0⟩, ⟨24847716090263412, 10⟩, ⟨92430965954523792, 17⟩),
  (⟨24736961746914228, 10⟩, ⟨51544746110802431, 17⟩, ⟨0, 0⟩, ⟨24736961746914228, 10⟩, ⟨51544746110802431, 17⟩, ⟨0, 0⟩, ⟨24736961746914228, 10⟩, ⟨51544746110802431, 17⟩),
  (⟨24724368626910541, 10⟩, ⟨67306967638417803, 17⟩, ⟨0, 0⟩, ⟨24724368626910541, 10⟩, ⟨67306967638417803, 17⟩, ⟨0, 0⟩, ⟨24724368626910541, 10⟩, ⟨67306967638417803, 17⟩),
  (⟨24622093194489242, 10⟩, ⟨65920351346942685, 17⟩, ⟨0, 0⟩, ⟨24622093194489242, 10⟩, ⟨65920351346942685, 17⟩, ⟨0, 0⟩, ⟨24622093194489242, 10⟩, ⟨65920351346942685, 17⟩),
  (⟨24642875584298554, 10⟩, ⟨65082296377286974, 17⟩, ⟨0, 0⟩, ⟨24642875584298554, 10⟩, ⟨65082296377286974, 17⟩, ⟨0, 0⟩, ⟨24642875584298554, 10⟩, ⟨65082296377286974, 17⟩),
  (⟨24878452968161809, 10⟩, ⟨56632214404146919, 17⟩, ⟨0, 0⟩, ⟨24878452968161809, 10⟩, ⟨56632214404146919, 17⟩, ⟨0, 0⟩, ⟨24878452968161809, 10⟩, ⟨56632214404146919, 17⟩),
  (⟨24626639122653869, 10⟩, ⟨22529764653542228, 17⟩, ⟨0, 0⟩, ⟨24626639122653869, 10⟩, ⟨22529764653542228, 17⟩, ⟨0, 0⟩, ⟨24626639122653869, 10⟩, ⟨22529764653542228, 17⟩),
  (⟨24594735368496384, 10⟩, ⟨80575622201215935, 17⟩, ⟨0, 0⟩, ⟨24594735368496384, 10⟩, ⟨80575622201215935, 17⟩, ⟨0, 0⟩, ⟨24594735368496384, 10⟩, ⟨80575622201215935, 17⟩),
  (⟨24650831473434176, 10⟩, ⟨65494989308081564, 17⟩, ⟨0, 0⟩, ⟨24650831473434176, 10⟩, ⟨65494989308081564, 17⟩, ⟨0, 0⟩, ⟨24650831473434176, 10⟩, ⟨65494989308081564, 17⟩),
  (⟨24797359835805958, 10⟩, ⟨44898817120409751, 17⟩, ⟨0, 0⟩, ⟨24797359835805958, 10⟩, ⟨44898817120409751, 17⟩, ⟨0, 0⟩, ⟨24797359835805958, 10⟩, ⟨44898817120409751, 17⟩),
  (⟨24538436721924189, 10⟩, ⟨87746770742429103, 17⟩, ⟨0, 0⟩, ⟨24538436721924189, 10⟩, ⟨87746770742429103, 17⟩, ⟨0, 0⟩, ⟨24538436721924189, 10⟩, ⟨87746770742429103, 17⟩),
  (⟨24660950634044120, 10⟩, ⟨42891027047667862, 17⟩, ⟨0, 0⟩, ⟨24660950634044120, 10⟩, ⟨42891027047667862, 17⟩, ⟨0, 0⟩, ⟨24660950634044120, 10⟩, ⟨42891027047667862, 17⟩),
  (⟨24551932861076309, 10⟩, ⟨39053383387791052, 17⟩, ⟨0, 0⟩, ⟨24551932861076309, 10⟩, ⟨39053383387791052, 17⟩, ⟨0, 0⟩, ⟨24551932861076309, 10⟩, ⟨39053383387791052, 17⟩),
  (⟨24713210228154594, 10⟩, ⟨80955768808787754, 17⟩, ⟨0, 0⟩, ⟨24713210228154594, 10⟩, ⟨80955768808787754, 17⟩, ⟨0, 0⟩, ⟨24713210228154594, 10⟩, ⟨80955768808787754, 17⟩),
  (⟨24604581986649595, 10⟩, ⟨70808430683014767, 17⟩, ⟨0, 0⟩, ⟨24604581986649595, 10⟩, ⟨70808430683014767, 17⟩, ⟨0, 0⟩, ⟨24604581986649595, 10⟩, ⟨70808430683014767, 17⟩),
  (⟨24583954158287337, 10⟩, ⟨77715550883533413, 17⟩, ⟨0, 0⟩, ⟨24583954158287337, 10⟩, ⟨77715550883533413, 17⟩, ⟨0, 0⟩, ⟨24583954158287337, 10⟩, ⟨77715550883533413, 17⟩),
  (⟨24835299650691738, 10⟩, ⟨86525215036717285, 18⟩, ⟨0, 0⟩, ⟨24835299650691738, 10⟩, ⟨86525215036717285, 18⟩, ⟨0, 0⟩, ⟨24835299650691738, 10⟩, ⟨86525215036717285, 18⟩),
  (⟨24758519251727918, 10⟩, ⟨53007801521305364, 17⟩, ⟨0, 0⟩, ⟨24758519251727918, 10⟩, ⟨53007801521305364, 17⟩, ⟨0, 0⟩, ⟨24758519251727918, 10⟩, ⟨53007801521305364, 17⟩),
  (⟨24693578575886474, 10⟩, ⟨30572430325814715, 17⟩, ⟨0, 0⟩, ⟨24693578575886474, 10⟩, ⟨30572430325814715, 17⟩, ⟨0, 0⟩, ⟨24693578575886474, 10⟩, ⟨30572430325814715, 17⟩),
  (⟨24612397500382233, 10⟩, ⟨61447431263582242, 17⟩, ⟨0, 0⟩, ⟨24612397500382233, 10⟩, ⟨61447431263582242, 17⟩, ⟨0, 0⟩, ⟨24612397500382233, 10⟩, ⟨61447431263582242, 17⟩),
  (⟨24677712503586342, 10⟩, ⟨21630635475413540, 17⟩, ⟨0, 0⟩, ⟨24677712503586342, 10⟩, ⟨21630635475413540, 17⟩, ⟨0, 0⟩, ⟨24677712503586342, 10⟩, ⟨21630635475413540, 17⟩),
  (⟨24669518852131208, 10⟩, ⟨60307561513846597, 17⟩, ⟨0, 0⟩, ⟨24669518852131208, 10⟩, ⟨60307561513846597, 17⟩, ⟨0, 0⟩, ⟨24669518852131208, 10⟩, ⟨60307561513846597, 17⟩),
  (⟨24814000874010590, 10⟩, ⟨55154364653563137, 17⟩, ⟨0, 0⟩, ⟨24814000874010590, 10⟩, ⟨55154364653563137, 17⟩, ⟨0, 0⟩, ⟨24814000874010590, 10⟩, ⟨55154364653563137, 17⟩),
  (⟨24832572936141654, 10⟩, ⟨52921813501363557, 17⟩, ⟨0, 0⟩, ⟨24832572936141654, 10⟩, ⟨52921813501363557, 17⟩, ⟨0, 0⟩, ⟨24832572936141654, 10⟩, ⟨52921813501363557, 17⟩),
  (⟨24880554504924482, 10⟩, ⟨22030922676644771, 17⟩, ⟨0, 0⟩, ⟨24880554504924482, 10⟩, ⟨22030922676644771, 17⟩, ⟨0, 0⟩, ⟨24880554504924482, 10⟩, ⟨22030922676644771, 17⟩),
  (⟨24860839306827937, 10⟩, ⟨41612104633441027, 17⟩, ⟨0, 0⟩, ⟨24860839306827937, 10⟩, ⟨41612104633441027, 17⟩, ⟨0, 0⟩, ⟨24860839306827937, 10⟩, ⟨41612104633441027, 17⟩),
  (⟨24674490868411837, 10⟩, ⟨95432567467619434, 17⟩, ⟨0, 0⟩, ⟨24674490868411837, 10⟩, ⟨95432567467619434, 17⟩, ⟨0, 0⟩, ⟨24674490868411837, 10⟩, ⟨95432567467619434, 17⟩),
  (⟨24721441534813219, 10⟩, ⟨33241240837835462, 17⟩, ⟨0, 0⟩, ⟨24721441534813219, 10⟩, ⟨33241240837835462, 17⟩, ⟨0, 0⟩, ⟨24721441534813219, 10⟩, ⟨33241240837835462, 17⟩),
  (⟨24856737720239363, 10⟩, ⟨25538465018715040, 18⟩, ⟨0, 0⟩, ⟨24856737720239363, 10⟩, ⟨25538465018715040, 18⟩, ⟨0, 0⟩, ⟨24856737720239363, 10⟩, ⟨25538465018715040, 18⟩),
  (⟨24607344022878539, 10⟩, ⟨57898118302586510, 17⟩, ⟨0, 0⟩, ⟨24607344022878539, 10⟩, ⟨57898118302586510, 17⟩, ⟨0, 0⟩, ⟨24607344022878539, 10⟩, ⟨57898118302586510, 17⟩),
  (⟨24713630674733259, 10⟩, ⟨21326980230137249, 17⟩, ⟨0, 0⟩, ⟨24713630674733259, 10⟩, ⟨21326980230137249, 17⟩, ⟨0, 0⟩, ⟨24713630674733259, 10⟩, ⟨21326980230137249, 17⟩),
  (⟨24571817953735287, 10⟩, ⟨29417605331031516, 17⟩, ⟨0, 0⟩, ⟨24571817953735287, 10⟩, ⟨29417605331031516, 17⟩, ⟨0, 0⟩, ⟨24571817953735287, 10⟩, ⟨29417605331031516, 17⟩),
  (⟨24724939660177962, 10⟩, ⟨36718102684863974, 17⟩, ⟨0, 0⟩, ⟨24724939660177962, 10⟩, ⟨36718102684863974, 17⟩, ⟨0, 0⟩, ⟨24724939660177962, 10⟩, ⟨36718102684863974, 17⟩),
  (⟨24775510519975023, 10⟩, ⟨47652610076625113, 17⟩, ⟨0, 0⟩, ⟨24775510519975023, 10⟩, ⟨47652610076625113, 17⟩, ⟨0, 0⟩, ⟨24775510519975023, 10⟩, ⟨47652610076625113, 17⟩),
  (⟨24739787528251107, 10⟩, ⟨37410484508932829, 17⟩, ⟨0, 0⟩, ⟨24739787528251107, 10⟩, ⟨37410484508932829, 17⟩, ⟨0, 0⟩, ⟨24739787528251107, 10⟩, ⟨37410484508932829, 17⟩)]

/-- Entries 700 to 799. -/
def C2t_7 : List (Dec × Dec × Dec × Dec × Dec × Dec × Dec × Dec) := [
  (⟨24844560909433244, 10⟩, ⟨20036506642297780, 17⟩, ⟨0, 0⟩, ⟨24844560909433244, 10⟩, ⟨20036506642297780, 17⟩, ⟨0, 0⟩, ⟨24844560909433244, 10⟩, ⟨20036506642297780, 17⟩),
  (⟨24757823770020944, 10⟩, ⟨63187096316350777, 18⟩, ⟨0, 0⟩, ⟨24757823770020944, 10⟩, ⟨63187096316350777, 18⟩, ⟨0, 0⟩, ⟨24757823770020944, 10⟩, ⟨63187096316350777, 18⟩),
  (⟨24714424352547848, 10⟩, ⟨61133966681834218, 17⟩, ⟨0, 0⟩, ⟨24714424352547848, 10⟩, ⟨61133966681834218, 17⟩, ⟨0, 0⟩, ⟨24714424352547848, 10⟩, ⟨61133966681834218, 17⟩),
  (⟨24724127652663970, 10⟩, ⟨68288335922431409, 17⟩, ⟨0, 0⟩, ⟨24724127652663970, 10⟩, ⟨68288335922431409, 17⟩, ⟨0, 0⟩, ⟨24724127652663970, 10⟩, ⟨68288335922431409, 17⟩),
  (⟨24609247494574161, 10⟩, ⟨50302416809084793, 17⟩, ⟨0, 0⟩, ⟨24609247494574161, 10⟩, ⟨50302416809084793, 17⟩, ⟨0, 0⟩, ⟨24609247494574161, 10⟩, ⟨50302416809084793, 17⟩),
  (⟨24617370951504060, 10⟩, ⟨37144001698972295, 17⟩, ⟨0, 0⟩, ⟨24617370951504060, 10⟩, ⟨37144001698972295, 17⟩, ⟨0, 0⟩, ⟨24617370951504060, 10⟩, ⟨37144001698972295, 17⟩),
  (⟨24774532425662596, 10⟩, ⟨99601048946301707, 17⟩, ⟨0, 0⟩, ⟨24774532425662596, 10⟩, ⟨99601048946301707, 17⟩, ⟨0, 0⟩, ⟨24774532425662596, 10⟩, ⟨99601048946301707, 17⟩),
  (⟨24830557676031594, 10⟩, ⟨75322867945980621, 17⟩, ⟨0, 0⟩, ⟨24830557676031594, 10⟩, ⟨75322867945980621, 17⟩, ⟨0, 0⟩, ⟨24830557676031594, 10⟩, ⟨75322867945980621, 17⟩),
  (⟨24574345911247632, 10⟩, ⟨93244005123261120, 17⟩, ⟨0, 0⟩, ⟨24574345911247632, 10⟩, ⟨93244005123261120, 17⟩, ⟨0, 0⟩, ⟨24574345911247632, 10⟩, ⟨93244005123261120, 17⟩),
  (⟨24516782717332966, 10⟩, ⟨20732406352882549, 17⟩, ⟨0, 0⟩, ⟨24516782717332966, 10⟩, ⟨20732406352882549, 17⟩, ⟨0, 0⟩, ⟨24516782717332966, 10⟩, ⟨20732406352882549, 17⟩),
  (⟨24643627313593272, 10⟩, ⟨51711670589332726, 17⟩, ⟨0, 0⟩, ⟨24643627313593272, 10⟩, ⟨51711670589332726, 17⟩, ⟨0, 0⟩, ⟨24643627313593272, 10⟩, ⟨51711670589332726, 17⟩),
  (⟨24554038734057150, 10⟩, ⟨51666456735895594, 17⟩, ⟨0, 0⟩, ⟨24554038734057150, 10⟩, ⟨51666456735895594, 17⟩, ⟨0, 0⟩, ⟨24554038734057150, 10⟩, ⟨51666456735895594, 17⟩),
  (⟨24552888554911125, 10⟩, ⟨33154225574795937, 17⟩, ⟨0, 0⟩, ⟨24552888554911125, 10⟩, ⟨33154225574795937, 17⟩, ⟨0, 0⟩, ⟨24552888554911125, 10⟩, ⟨33154225574795937, 17⟩),
  (⟨24785649774433160, 10⟩, ⟨46704054762150005, 17⟩, ⟨0, 0⟩, ⟨24785649774433160, 10⟩, ⟨46704054762150005, 17⟩, ⟨0, 0⟩, ⟨24785649774433160, 10⟩, ⟨46704054762150005, 17⟩),
  (⟨24591260894637569, 10⟩, ⟨29220250489111366, 17⟩, ⟨0, 0⟩, ⟨24591260894637569, 10⟩, ⟨29220250489111366, 17⟩, ⟨0, 0⟩, ⟨24591260894637569, 10⟩, ⟨29220250489111366, 17⟩),
  (⟨24596297113008294, 10⟩, ⟨93969964130765959, 17⟩, ⟨0, 0⟩, ⟨24596297113008294, 10⟩, ⟨93969964130765959, 17⟩, ⟨0, 0⟩, ⟨24596297113008294, 10⟩, ⟨93969964130765959, 17⟩),
  (⟨24756681356389271, 10⟩, ⟨67903224963628295, 17⟩, ⟨0, 0⟩, ⟨24756681356389271, 10⟩, ⟨67903224963628295, 17⟩, ⟨0, 0⟩, ⟨24756681356389271, 10⟩, ⟨67903224963628295, 17⟩),
  (⟨24820229427899164, 10⟩, ⟨92851199621498903, 17⟩, ⟨0, 0⟩, ⟨24820229427899164, 10⟩, ⟨92851199621498903, 17⟩, ⟨0, 0⟩, ⟨24820229427899164, 10⟩, ⟨92851199621498903, 17⟩),
  (⟨24805247343867174, 10⟩, ⟨53207579988360620, 17⟩, ⟨0, 0⟩, ⟨24805247343867174, 10⟩, ⟨53207579988360620, 17⟩, ⟨0, 0⟩, ⟨24805247343867174, 10⟩, ⟨53207579988360620, 17⟩),
  (⟨24561481559269493, 10⟩, ⟨74908963499593095, 17⟩, ⟨0, 0⟩, ⟨24561481559269493, 10⟩, ⟨74908963499593095, 17⟩, ⟨0, 0⟩, ⟨24561481559269493, 10⟩, ⟨74908963499593095, 17⟩),
  (⟨24525256122381603, 10⟩, ⟨92993599805942562, 17⟩, ⟨0, 0⟩, ⟨24525256122381603, 10⟩, ⟨92993599805942562, 17⟩, ⟨0, 0⟩, ⟨24525256122381603, 10⟩, ⟨92993599805942562, 17⟩),
  (⟨24719471632013172, 10⟩, ⟨59158268754577659, 17⟩, ⟨0, 0⟩, ⟨24719471632013172, 10⟩, ⟨59158268754577659, 17⟩, ⟨0, 0⟩, ⟨24719471632013172, 10⟩, ⟨59158268754577659, 17⟩),
  (⟨24727386623464646, 10⟩, ⟨52281751200984672, 17⟩, ⟨0, 0⟩, ⟨24727386623464646, 10⟩, ⟨52281751200984672, 17⟩, ⟨0, 0⟩, ⟨24727386623464646, 10⟩, ⟨52281751200984672, 17⟩),
  (⟨24552273472864898, 10⟩, ⟨74410833723452152, 17⟩, ⟨0, 0⟩, ⟨24552273472864898, 10⟩, ⟨74410833723452152, 17⟩, ⟨0, 0⟩, ⟨24552273472864898, 10⟩, ⟨74410833723452152, 17⟩),
  (⟨24839421479680515, 10⟩, ⟨32729586393478027, 17⟩, ⟨0, 0⟩, ⟨24839421479680515, 10⟩, ⟨32729586393478027, 17⟩, ⟨0, 0⟩, ⟨24839421479680515, 10⟩, ⟨32729586393478027, 17⟩),
  (⟨24839632204250782, 10⟩, ⟨98928888126184056, 17⟩, ⟨0, 0⟩, ⟨24839632204250782, 10⟩, ⟨98928888126184056, 17⟩, ⟨0, 0⟩, ⟨24839632204250782, 10⟩, ⟨98928888126184056, 17⟩),
  (⟨24716266707682726, 10⟩, ⟨82195831468122860, 17⟩, ⟨0, 0⟩, ⟨24716266707682726, 10⟩, ⟨82195831468122860, 17⟩, ⟨0, 0⟩, ⟨24716266707682726, 10⟩, ⟨82195831468122860, 17⟩),
  (⟨24555538088794658, 10⟩, ⟨89774558761574519, 17⟩, ⟨0, 0⟩, ⟨24555538088794658, 10⟩, ⟨89774558761574519, 17⟩, ⟨0, 0⟩, ⟨24555538088794658, 10⟩, ⟨89774558761574519, 17⟩),
  (⟨24836138060900136, 10⟩, ⟨51239709216256191, 17⟩, ⟨0, 0⟩, ⟨24836138060900136, 10⟩, ⟨51239709216256191, 17⟩, ⟨0, 0⟩, ⟨24836138060900136, 10⟩, ⟨51239709216256191, 17⟩),
  (⟨24871944159459192, 10⟩, ⟨64844035086803620, 17⟩, ⟨0, 0⟩, ⟨24871944159459192, 10⟩, ⟨64844035086803620, 17⟩, ⟨0, 0⟩, ⟨24871944159459192, 10⟩, ⟨64844035086803620, 17⟩),
  (⟨24844933493670016, 10⟩, ⟨92809274179518852, 17⟩, ⟨0, 0⟩, ⟨24844933493670016, 10⟩, ⟨92809274179518852, 17⟩, ⟨0, 0⟩, ⟨24844933493670016, 10⟩, ⟨92809274179518852, 17⟩),
  (⟨24628922518843715, 10⟩, ⟨31269920468334766, 17⟩, ⟨0, 0⟩, ⟨24628922518843715, 10⟩, ⟨31269920468334766, 17⟩, ⟨0, 0⟩, ⟨24628922518843715, 10⟩, ⟨31269920468334766, 17⟩),
  (⟨24525865221751905, 10⟩, ⟨35207166766527276, 17⟩, ⟨0, 0⟩, ⟨24525865221751905, 10⟩, ⟨35207166766527276, 17⟩, ⟨0, 0⟩, ⟨24525865221751905, 10⟩, ⟨35207166766527276, 17⟩),
  (⟨24818289824629170, 10⟩, ⟨25090174531667209, 17⟩, ⟨0, 0⟩, ⟨24818289824629170, 10⟩, ⟨25090174531667209, 17⟩, ⟨0, 0⟩, ⟨24818289824629170, 10⟩, ⟨25090174531667209, 17⟩),
  (⟨24828246253755977, 10⟩, ⟨62738342417261062, 17⟩, ⟨0, 0⟩, ⟨24828246253755977, 10⟩, ⟨62738342417261062, 17⟩, ⟨0, 0⟩, ⟨24828246253755977, 10⟩, ⟨62738342417261062, 17⟩),
  (⟨24769381635016580, 10⟩, ⟨55334442792414362, 17⟩, ⟨0, 0⟩, ⟨24769381635016580, 10⟩, ⟨55334442792414362, 17⟩, ⟨0, 0⟩, ⟨24769381635016580, 10⟩, ⟨55334442792414362, 17⟩),
  (⟨24593604213013006, 10⟩, ⟨69502555577089997, 17⟩, ⟨0, 0⟩, ⟨24593604213013006, 10⟩, ⟨69502555577089997, 17⟩, ⟨0, 0⟩, ⟨24593604213013006, 10⟩, ⟨69502555577089997, 17⟩),
  (⟨24757966405426315, 10⟩, ⟨40230964489732091, 17⟩, ⟨0, 0⟩, ⟨24757966405426315, 10⟩, ⟨40230964489732091, 17⟩, ⟨0, 0⟩, ⟨24757966405426315, 10⟩, ⟨40230964489732091, 17⟩),
  (⟨24825423990935762, 10⟩, ⟨19047366119899878, 17⟩, ⟨0, 0⟩, ⟨24825423990935762, 10⟩, ⟨19047366119899878, 17⟩, ⟨0, 0⟩, ⟨24825423990935762, 10⟩, ⟨19047366119899878, 17⟩),
  (⟨24718319604287068, 10⟩, ⟨64546750870022607, 17⟩, ⟨0, 0⟩, ⟨24718319604287068, 10⟩, ⟨64546750870022607, 17⟩, ⟨0, 0⟩, ⟨24718319604287068, 10⟩, ⟨64546750870022607, 17⟩),
  (⟨24653270630509327, 10⟩, ⟨43364202085345616, 17⟩, ⟨0, 0⟩, ⟨24653270630509327, 10⟩, ⟨43364202085345616, 17⟩, ⟨0, 0⟩, ⟨24653270630509327, 10⟩, ⟨43364202085345616, 17⟩),
  (⟨24830721495694262, 10⟩, ⟨22688601809950038, 17⟩, ⟨0, 0⟩, ⟨24830721495694262, 10⟩, ⟨22688601809950038, 17⟩, ⟨0, 0⟩, ⟨24830721495694262, 10⟩, ⟨22688601809950038, 17⟩),
  (⟨24573386509700459, 10⟩, ⟨84850087702285515, 17⟩, ⟨0, 0⟩, ⟨24573386509700459, 10⟩, ⟨84850087702285515, 17⟩, ⟨0, 0⟩, ⟨24573386509700459, 10⟩, ⟨84850087702285515, 17⟩),
  (⟨24594035517579699, 10⟩, ⟨37691983784314131, 17⟩, ⟨0, 0⟩, ⟨24594035517579699, 10⟩, ⟨37691983784314131, 17⟩, ⟨0, 0⟩, ⟨24594035517579699, 10⟩, ⟨37691983784314131, 17⟩),
  (⟨24609615462022442, 10⟩, ⟨80513801316170208, 17⟩, ⟨0, 0⟩, ⟨24609615462022442, 10⟩, ⟨80513801316170208, 17⟩, ⟨0, 0⟩, ⟨24609615462022442, 10⟩, ⟨80513801316170208, 17⟩),
  (⟨24617276417166777, 10⟩, ⟨37892741698951204, 17⟩, ⟨0, 0⟩, ⟨24617276417166777, 10⟩, ⟨37892741698951204, 17⟩, ⟨0, 0⟩, ⟨24617276417166777, 10⟩, ⟨37892741698951204, 17⟩),
  (⟨24521887947652177, 10⟩, ⟨20041962429513993, 17⟩, ⟨0, 0⟩, ⟨24521887947652177, 10⟩, ⟨20041962429513993, 17⟩, ⟨0, 0⟩, ⟨24521887947652177, 10⟩, ⟨20041962429513993, 17⟩),
  (⟨24773633964461521, 10⟩, ⟨57744023881084994, 17⟩, ⟨0, 0⟩, ⟨24773633964461521, 10⟩, ⟨57744023881084994, 17⟩, ⟨0, 0⟩, ⟨24773633964461521, 10⟩, ⟨57744023881084994, 17⟩),
  (⟨24779893897045772, 10⟩, ⟨24092006508703900, 17⟩, ⟨0, 0⟩, ⟨24779893897045772, 10⟩, ⟨24092006508703900, 17⟩, ⟨0, 0⟩, ⟨24779893897045772, 10⟩, ⟨24092006508703900, 17⟩),
  (⟨24803168934613192, 10⟩, ⟨39094382228391555, 17⟩, ⟨0, 0⟩, ⟨24803168934613192, 10⟩, ⟨39094382228391555, 17⟩, ⟨0, 0⟩, ⟨24803168934613192, 10⟩, ⟨39094382228391555, 17⟩),
  (⟨24751767420096928, 10⟩, ⟨68230106312585070, 17⟩, ⟨0, 0⟩, ⟨24751767420096928, 10⟩, ⟨68230106312585070, 17⟩, ⟨0, 0⟩, ⟨24751767420096928, 10⟩, ⟨68230106312585070, 17⟩),
  (⟨24639369349918533, 10⟩, ⟨38436440325756172, 17⟩, ⟨0, 0⟩, ⟨24639369349918533, 10⟩, ⟨38436440325756172, 17⟩, ⟨0, 0⟩, ⟨24639369349918533, 10⟩, ⟨38436440325756172, 17⟩),
  (⟨24740590531017673, 10⟩, ⟨63791116186456120, 17⟩, ⟨0, 0⟩, ⟨24740590531017673, 10⟩, ⟨63791116186456120, 17⟩, ⟨0, 0⟩, ⟨24740590531017673, 10⟩, ⟨63791116186456120, 17⟩),
  (⟨24690148690232444, 10⟩, ⟨72430613945324351, 18⟩, ⟨0, 0⟩, ⟨24690148690232444, 10⟩, ⟨72430613945324351, 18⟩, ⟨0, 0⟩, ⟨24690148690232444, 10⟩, ⟨72430613945324351, 18⟩),
  (⟨24844193040254796, 10⟩, ⟨27761307676455216, 17⟩, ⟨0, 0⟩, ⟨24844193040254796, 10⟩, ⟨27761307676455216, 17⟩, ⟨0, 0⟩, ⟨24844193040254796, 10⟩, ⟨27761307676455216, 17⟩),
  (⟨24763896113107214, 10⟩, ⟨87682947537343303, 17⟩, ⟨0, 0⟩, ⟨24763896113107214, 10⟩, ⟨87682947537343303, 17⟩, ⟨0, 0⟩, ⟨24763896113107214, 10⟩, ⟨87682947537343303, 17⟩),
  (⟨24563578885476519, 10⟩, ⟨53536770638506026, 17⟩, ⟨0, 0⟩, ⟨24563578885476519, 10⟩, ⟨53536770638506026, 17⟩, ⟨0, 0⟩, ⟨24563578885476519, 10⟩, ⟨53536770638506026, 17⟩),
  (⟨24714293258222505, 10⟩, ⟨68005392556439781, 17⟩, ⟨0, 0⟩, ⟨24714293258222505, 10⟩, ⟨68005392556439781, 17⟩, ⟨0, 0⟩, ⟨24714293258222505, 10⟩, ⟨68005392556439781, 17⟩),
  (⟨24850427668429562, 10⟩, ⟨36436855902947618, 17⟩, ⟨0, 0⟩, ⟨24850427668429562, 10⟩, ⟨36436855902947618, 17⟩, ⟨0, 0⟩, ⟨24850427668429562, 10⟩, ⟨36436855902947618, 17⟩),
  (⟨24623877959893914, 10⟩, ⟨47598340343661061, 18⟩, ⟨0, 0⟩, ⟨24623877959893914, 10⟩, ⟨47598340343661061, 18⟩, ⟨0, 0⟩, ⟨24623877959893914, 10⟩, ⟨47598340343661061, 18⟩),
  (⟨24551659189318111, 10⟩, ⟨13532003506405232, 17⟩, ⟨0, 0⟩, ⟨24551659189318111, 10⟩, ⟨13532003506405232, 17⟩, ⟨0, 0⟩, ⟨24551659189318111, 10⟩, ⟨13532003506405232, 17⟩),
  (⟨24847636909039007, 10⟩, ⟨69680062070238435, 17⟩, ⟨0, 0⟩, ⟨24847636909039007, 10⟩, ⟨69680062070238435, 17⟩, ⟨0, 0⟩, ⟨24847636909039007, 10⟩, ⟨69680062070238435, 17⟩),
  (⟨24577507637503846, 10⟩, ⟨70749588214182535, 17⟩, ⟨0, 0⟩, ⟨24577507637503846, 10⟩, ⟨70749588214182535, 17⟩, ⟨0, 0⟩, ⟨24577507637503846, 10⟩, ⟨70749588214182535, 17⟩),
  (⟨24741502266581864, 10⟩, ⟨38911947247657497, 17⟩, ⟨0, 0⟩, ⟨24741502266581864, 10⟩, ⟨38911947247657497, 17⟩, ⟨0, 0⟩, ⟨24741502266581864, 10⟩, ⟨38911947247657497, 17⟩),
  (⟨24687907515175990, 10⟩, ⟨79227422699828665, 17⟩, ⟨0, 0⟩, ⟨24687907515175990, 10⟩, ⟨79227422699828665, 17⟩, ⟨0, 0⟩, ⟨24687907515175990, 10⟩, ⟨79227422699828665, 17⟩),
  (⟨24748220032826751, 10⟩, ⟨53173486485718380, 17⟩, ⟨0, 0⟩, ⟨24748220032826751, 10⟩, ⟨53173486485718380, 17⟩, ⟨0, 0⟩, ⟨24748220032826751, 10⟩, ⟨53173486485718380, 17⟩),
  (⟨24755044682385358, 10⟩, ⟨18303419762318607, 17⟩, ⟨0, 0⟩, ⟨24755044682385358, 10⟩, ⟨18303419762318607, 17⟩, ⟨0, 0⟩, ⟨24755044682385358, 10⟩, ⟨18303419762318607, 17⟩),
  (⟨24516186478069690, 10⟩, ⟨60325572318429743, 17⟩, ⟨0, 0⟩, ⟨24516186478069690, 10⟩, ⟨60325572318429743, 17⟩, ⟨0, 0⟩, ⟨24516186478069690, 10⟩, ⟨60325572318429743, 17⟩),
  (⟨24815878186231893, 10⟩, ⟨66507986499117555, 17⟩, ⟨0, 0⟩, ⟨24815878186231893, 10⟩, ⟨66507986499117555, 17⟩, ⟨0, 0⟩, ⟨24815878186231893, 10⟩, ⟨66507986499117555, 17⟩),
  (⟨24676234970247867, 10⟩, ⟨93779997381113345, 17⟩, ⟨0, 0⟩, ⟨24676234970247867, 10⟩, ⟨93779997381113345, 17⟩, ⟨0, 0⟩, ⟨24676234970247867, 10⟩, ⟨93779997381113345, 17⟩),
  (⟨24682609089929070, 10⟩, ⟨74754458947249147, 17⟩, ⟨0, 0⟩, ⟨24682609089929070, 10⟩, ⟨74754458947249147, 17⟩, ⟨0, 0⟩, ⟨24682609089929070, 10⟩, ⟨74754458947249147, 17⟩),
  (⟨24794157519896412, 10⟩, ⟨73023695682622591, 17⟩, ⟨0, 0⟩, ⟨24794157519896412, 10⟩, ⟨73023695682622591, 17⟩, ⟨0, 0⟩, ⟨24794157519896412, 10⟩, ⟨73023695682622591, 17⟩),
  (⟨24672189277119939, 10⟩, ⟨11176167367186218, 17⟩, ⟨0, 0⟩, ⟨24672189277119939, 10⟩, ⟨11176167367186218, 17⟩, ⟨0, 0⟩, ⟨24672189277119939, 10⟩, ⟨11176167367186218, 17⟩),
  (⟨24691264357054615, 10⟩, ⟨37837624991028174, 17⟩, ⟨0, 0⟩, ⟨24691264357054615, 10⟩, ⟨37837624991028174, 17⟩, ⟨0, 0⟩, ⟨24691264357054615, 10⟩, ⟨37837624991028174, 17⟩),
  (⟨24540057804141650, 10⟩, ⟨73074771988951037, 17⟩, ⟨0, 0⟩, ⟨24540057804141650, 10⟩, ⟨73074771988951037, 17⟩, ⟨0, 0⟩, ⟨24540057804141650, 10⟩, ⟨73074771988951037, 17⟩),
  (⟨24563643897648957, 10⟩, ⟨45289788720221380, 17⟩, ⟨0, 0⟩, ⟨24563643897648957, 10⟩, ⟨45289788720221380, 17⟩, ⟨0, 0⟩, ⟨24563643897648957, 10⟩, ⟨45289788720221380, 17⟩),
  (⟨24675394289561827, 10⟩, ⟨97926716163003358, 17⟩, ⟨0, 0⟩, ⟨24675394289561827, 10⟩, ⟨97926716163003358, 17⟩, ⟨0, 0⟩, ⟨24675394289561827, 10⟩, ⟨97926716163003358, 17⟩),
  (⟨24876616408036784, 10⟩, ⟨46743714317805141, 17⟩, ⟨0, 0⟩, ⟨24876616408036784, 10⟩, ⟨46743714317805141, 17⟩, ⟨0, 0⟩, ⟨24876616408036784, 10⟩, ⟨46743714317805141, 17⟩),
  (⟨24818662583911638, 10⟩, ⟨12440361338007744, 18⟩, ⟨0, 0⟩, ⟨24818662583911638, 10⟩, ⟨12440361338007744, 18⟩, ⟨0, 0⟩, ⟨24818662583911638, 10⟩, ⟨12440361338007744, 18⟩),
  (⟨24574769958235682, 10⟩, ⟨50670986079872782, 17⟩, ⟨0, 0⟩, ⟨24574769958235682, 10⟩, ⟨50670986079872782, 17⟩, ⟨0, 0⟩, ⟨24574769958235682, 10⟩, ⟨50670986079872782, 17⟩),
  (⟨24756192632318237, 10⟩, ⟨95558624919816815, 17⟩, ⟨0, 0⟩, ⟨24756192632318237, 10⟩, ⟨95558624919816815, 17⟩, ⟨0, 0⟩, ⟨24756192632318237, 10⟩, ⟨95558624919816815, 17⟩),
  (⟨24710561853170265, 10⟩, ⟨91165867457093497, 17⟩, ⟨0, 0⟩, ⟨24710561853170265, 10⟩, ⟨91165867457093497, 17⟩, ⟨0, 0⟩, ⟨24710561853170265, 10⟩, ⟨91165867457093497, 17⟩),
  (⟨24856134222319121, 10⟩, ⟨95024117939068919, 17⟩, ⟨0, 0⟩, ⟨24856134222319121, 10⟩, ⟨95024117939068919, 17⟩, ⟨0, 0⟩, ⟨24856134222319121, 10⟩, ⟨95024117939068919, 17⟩),
  (⟨24698161222658702, 10⟩, ⟨59258605021331912, 17⟩, ⟨0, 0⟩, ⟨24698161222658702, 10⟩, ⟨59258605021331912, 17⟩, ⟨0, 0⟩, ⟨24698161222658702, 10⟩, ⟨59258605021331912, 17⟩),
  (⟨24687631485736067, 10⟩, ⟨36531423434377586, 17⟩, ⟨0, 0⟩, ⟨24687631485736067, 10⟩, ⟨36531423434377586, 17⟩, ⟨0, 0⟩, ⟨24687631485736067, 10⟩, ⟨36531423434377586, 17⟩),
  (⟨24870862343508010, 10⟩, ⟨73602549037952614, 17⟩, ⟨0, 0⟩, ⟨24870862343508010, 10⟩, ⟨73602549037952614, 17⟩, ⟨0, 0⟩, ⟨24870862343508010, 10⟩, ⟨73602549037952614, 17⟩),
  (⟨24592075902182721, 10⟩, ⟨98265679404734640, 17⟩, ⟨0, 0⟩, ⟨24592075902182721, 10⟩, ⟨98265679404734640, 17⟩, ⟨0, 0⟩, ⟨24592075902182721, 10⟩, ⟨98265679404734640, 17⟩),
  (⟨24551397098437245, 10⟩, ⟨69459835074245735, 17⟩, ⟨0, 0⟩, ⟨24551397098437245, 10⟩, ⟨69459835074245735, 17⟩, ⟨0, 0⟩, ⟨24551397098437245, 10⟩, ⟨69459835074245735, 17⟩),
  (⟨24616810732520241, 10⟩, ⟨77459438770855848, 17⟩, ⟨0, 0⟩, ⟨24616810732520241, 10⟩, ⟨77459438770855848, 17⟩, ⟨0, 0⟩, ⟨24616810732520241, 10⟩, ⟨77459438770855848, 17⟩),
  (⟨24606637797843721, 10⟩, ⟨90937667029890579, 17⟩, ⟨0, 0⟩, ⟨24606637797843721, 10⟩, ⟨90937667029890579, 17⟩, ⟨0, 0⟩, ⟨24606637797843721, 10⟩, ⟨90937667029890579, 17⟩),
  (⟨24874587138649793, 10⟩, ⟨78606280884782986, 17⟩, ⟨0, 0⟩, ⟨24874587138649793, 10⟩, ⟨78606280884782986, 17⟩, ⟨0, 0⟩, ⟨24874587138649793, 10⟩, ⟨78606280884782986, 17⟩),
  (⟨24696799214133117, 10⟩, ⟨80817459491003707, 17⟩, ⟨0, 0⟩, ⟨24696799214133117, 10⟩, ⟨80817459491003707, 17⟩, ⟨0, 0⟩, ⟨24696799214133117, 10⟩, ⟨80817459491003707, 17⟩),
  (⟨24573723327650311, 10⟩, ⟨80315238386297616, 17⟩, ⟨0, 0⟩, ⟨24573723327650311, 10⟩, ⟨80315238386297616, 17⟩, ⟨0, 0⟩, ⟨24573723327650311, 10⟩, ⟨80315238386297616, 17⟩),
  (⟨24877013561648228, 10⟩, ⟨59266046810065842, 17⟩, ⟨0, 0⟩, ⟨24877013561648228, 10⟩, ⟨59266046810065842, 17⟩, ⟨0, 0⟩, ⟨24877013561648228, 10⟩, ⟨59266046810065842, 17⟩),
  (⟨24863334833368724, 10⟩, ⟨40979876173679841, 17⟩, ⟨0, 0⟩, ⟨24863334833368724, 10⟩, ⟨40979876173679841, 17⟩, ⟨0, 0⟩, ⟨24863334833368724, 10⟩, ⟨40979876173679841, 17⟩),
  (⟨24851232406507106, 10⟩, ⟨97506203373253997, 18⟩, ⟨0, 0⟩, ⟨24851232406507106, 10⟩, ⟨97506203373253997, 18⟩, ⟨0, 0⟩, ⟨24851232406507106, 10⟩, ⟨97506203373253997, 18⟩),
  (⟨24733419198121419, 10⟩, ⟨16072222328409369, 17⟩, ⟨0, 0⟩, ⟨24733419198121419, 10⟩, ⟨16072222328409369, 17⟩, ⟨0, 0⟩, ⟨24733419198121419, 10⟩, ⟨16072222328409369, 17⟩),
  (⟨24636793423666256, 10⟩, ⟨65453507394297117, 18⟩, ⟨0, 0⟩, ⟨24636793423666256, 10⟩, ⟨65453507394297117, 18⟩, ⟨0, 0⟩, ⟨24636793423666256, 10⟩, ⟨65453507394297117, 18⟩),
  (⟨24668995995983924, 10⟩, ⟨96903464960885155, 17⟩, ⟨0, 0⟩, ⟨24668995995983924, 10⟩, ⟨96903464960885155, 17⟩, ⟨0, 0⟩, ⟨24668995995983924, 10⟩, ⟨96903464960885155, 17⟩),
  (⟨24675263048678245, 10⟩, ⟨58988139047188470, 18⟩, ⟨0, 0⟩, ⟨24675263048678245, 10⟩, ⟨58988139047188470, 18⟩, ⟨0, 0⟩, ⟨24675263048678245, 10⟩, ⟨58988139047188470, 18⟩)]

/-- Entries 800 to 899. -/
def C2t_8 : List (Dec × Dec × Dec × Dec × Dec × Dec × Dec × Dec) := [
  (⟨24633043062571157, 10⟩, ⟨57238588930766143, 17⟩, ⟨0, 0⟩, ⟨24633043062571157, 10⟩, ⟨57238588930766143, 17⟩, ⟨0, 0⟩, ⟨24633043062571157, 10⟩, ⟨57238588930766143, 17⟩),
  (⟨24595213610545886, 10⟩, ⟨12872822089874902, 17⟩, ⟨0, 0⟩, ⟨24595213610545886, 10⟩, ⟨12872822089874902, 17⟩, ⟨0, 0⟩, ⟨24595213610545886, 10⟩, ⟨12872822089874902, 17⟩),
  (⟨24641598702114746, 10⟩, ⟨80548544706236358, 17⟩, ⟨0, 0⟩, ⟨24641598702114746, 10⟩, ⟨80548544706236358, 17⟩, ⟨0, 0⟩, ⟨24641598702114746, 10⟩, ⟨80548544706236358, 17⟩),
  (⟨24536317866219822, 10⟩, ⟨53959758225203269, 17⟩, ⟨0, 0⟩, ⟨24536317866219822, 10⟩, ⟨53959758225203269, 17⟩, ⟨0, 0⟩, ⟨24536317866219822, 10⟩, ⟨53959758225203269, 17⟩),
  (⟨24879390531223868, 10⟩, ⟨91388210470308950, 17⟩, ⟨0, 0⟩, ⟨24879390531223868, 10⟩, ⟨91388210470308950, 17⟩, ⟨0, 0⟩, ⟨24879390531223868, 10⟩, ⟨91388210470308950, 17⟩),
  (⟨24776561954845428, 10⟩, ⟨81089289233707551, 17⟩, ⟨0, 0⟩, ⟨24776561954845428, 10⟩, ⟨81089289233707551, 17⟩, ⟨0, 0⟩, ⟨24776561954845428, 10⟩, ⟨81089289233707551, 17⟩),
  (⟨24805008567997292, 10⟩, ⟨60121996077771855, 17⟩, ⟨0, 0⟩, ⟨24805008567997292, 10⟩, ⟨60121996077771855, 17⟩, ⟨0, 0⟩, ⟨24805008567997292, 10⟩, ⟨60121996077771855, 17⟩),
  (⟨24805739479680760, 10⟩, ⟨21388279186717485, 17⟩, ⟨0, 0⟩, ⟨24805739479680760, 10⟩, ⟨21388279186717485, 17⟩, ⟨0, 0⟩, ⟨24805739479680760, 10⟩, ⟨21388279186717485, 17⟩),
  (⟨24555330699180099, 10⟩, ⟨60176487218189445, 17⟩, ⟨0, 0⟩, ⟨24555330699180099, 10⟩, ⟨60176487218189445, 17⟩, ⟨0, 0⟩, ⟨24555330699180099, 10⟩, ⟨60176487218189445, 17⟩),
  (⟨24681642237186916, 10⟩, ⟨11193243729740776, 17⟩, ⟨0, 0⟩, ⟨24681642237186916, 10⟩, ⟨11193243729740776, 17⟩, ⟨0, 0⟩, ⟨24681642237186916, 10⟩, ⟨11193243729740776, 17⟩),
  (⟨24696263405423043, 10⟩, ⟨59219240990603716, 18⟩, ⟨0, 0⟩, ⟨24696263405423043, 10⟩, ⟨59219240990603716, 18⟩, ⟨0, 0⟩, ⟨24696263405423043, 10⟩, ⟨59219240990603716, 18⟩),
  (⟨24870725300724208, 10⟩, ⟨62694193263428499, 17⟩, ⟨0, 0⟩, ⟨24870725300724208, 10⟩, ⟨62694193263428499, 17⟩, ⟨0, 0⟩, ⟨24870725300724208, 10⟩, ⟨62694193263428499, 17⟩),
  (⟨24574659373363648, 10⟩, ⟨42462403107569624, 17⟩, ⟨0, 0⟩, ⟨24574659373363648, 10⟩, ⟨42462403107569624, 17⟩, ⟨0, 0⟩, ⟨24574659373363648, 10⟩, ⟨42462403107569624, 17⟩),
  (⟨24857385116949156, 10⟩, ⟨12058084305874128, 17⟩, ⟨0, 0⟩, ⟨24857385116949156, 10⟩, ⟨12058084305874128, 17⟩, ⟨0, 0⟩, ⟨24857385116949156, 10⟩, ⟨12058084305874128, 17⟩),
  (⟨24654766942187431, 10⟩, ⟨91407939593612320, 17⟩, ⟨0, 0⟩, ⟨24654766942187431, 10⟩, ⟨91407939593612320, 17⟩, ⟨0, 0⟩, ⟨24654766942187431, 10⟩, ⟨91407939593612320, 17⟩),
  (⟨24752108508821917, 10⟩, ⟨17665101622945401, 17⟩, ⟨0, 0⟩, ⟨24752108508821917, 10⟩, ⟨17665101622945401, 17⟩, ⟨0, 0⟩, ⟨24752108508821917, 10⟩, ⟨17665101622945401, 17⟩),
  (⟨24526659014929803, 10⟩, ⟨76389345474568604, 17⟩, ⟨0, 0⟩, ⟨24526659014929803, 10⟩, ⟨76389345474568604, 17⟩, ⟨0, 0⟩, ⟨24526659014929803, 10⟩, ⟨76389345474568604, 17⟩),
  (⟨24548327197041851, 10⟩, ⟨95447467275334208, 17⟩, ⟨0, 0⟩, ⟨24548327197041851, 10⟩, ⟨95447467275334208, 17⟩, ⟨0, 0⟩, ⟨24548327197041851, 10⟩, ⟨95447467275334208, 17⟩),
  (⟨24720757253055330, 10⟩, ⟨57514038058968742, 17⟩, ⟨0, 0⟩, ⟨24720757253055330, 10⟩, ⟨57514038058968742, 17⟩, ⟨0, 0⟩, ⟨24720757253055330, 10⟩, ⟨57514038058968742, 17⟩),
  (⟨24650187130683679, 10⟩, ⟨44660598538895313, 17⟩, ⟨0, 0⟩, ⟨24650187130683679, 10⟩, ⟨44660598538895313, 17⟩, ⟨0, 0⟩, ⟨24650187130683679, 10⟩, ⟨44660598538895313, 17⟩),
  (⟨24710998702819818, 10⟩, ⟨44540712716230502, 18⟩, ⟨0, 0⟩, ⟨24710998702819818, 10⟩, ⟨44540712716230502, 18⟩, ⟨0, 0⟩, ⟨24710998702819818, 10⟩, ⟨44540712716230502, 18⟩),
  (⟨24652932209377806, 10⟩, ⟨85115505639930444, 17⟩, ⟨0, 0⟩, ⟨24652932209377806, 10⟩, ⟨85115505639930444, 17⟩, ⟨0, 0⟩, ⟨24652932209377806, 10⟩, ⟨85115505639930444, 17⟩),
  (⟨24716608466077689, 10⟩, ⟨45222883398037295, 17⟩, ⟨0, 0⟩, ⟨24716608466077689, 10⟩, ⟨45222883398037295, 17⟩, ⟨0, 0⟩, ⟨24716608466077689, 10⟩, ⟨45222883398037295, 17⟩),
  (⟨24640037510454678, 10⟩, ⟨15076417042554058, 17⟩, ⟨0, 0⟩, ⟨24640037510454678, 10⟩, ⟨15076417042554058, 17⟩, ⟨0, 0⟩, ⟨24640037510454678, 10⟩, ⟨15076417042554058, 17⟩),
  (⟨24604865750448033, 10⟩, ⟨38982207350013731, 17⟩, ⟨0, 0⟩, ⟨24604865750448033, 10⟩, ⟨38982207350013731, 17⟩, ⟨0, 0⟩, ⟨24604865750448033, 10⟩, ⟨38982207350013731, 17⟩),
  (⟨24829476381438901, 10⟩, ⟨75910833490668328, 17⟩, ⟨0, 0⟩, ⟨24829476381438901, 10⟩, ⟨75910833490668328, 17⟩, ⟨0, 0⟩, ⟨24829476381438901, 10⟩, ⟨75910833490668328, 17⟩),
  (⟨24853235707299337, 10⟩, ⟨90309599159603926, 17⟩, ⟨0, 0⟩, ⟨24853235707299337, 10⟩, ⟨90309599159603926, 17⟩, ⟨0, 0⟩, ⟨24853235707299337, 10⟩, ⟨90309599159603926, 17⟩),
  (⟨24637335711400555, 10⟩, ⟨16184922774989163, 17⟩, ⟨0, 0⟩, ⟨24637335711400555, 10⟩, ⟨16184922774989163, 17⟩, ⟨0, 0⟩, ⟨24637335711400555, 10⟩, ⟨16184922774989163, 17⟩),
  (⟨24547921519911317, 10⟩, ⟨82457785050723242, 17⟩, ⟨0, 0⟩, ⟨24547921519911317, 10⟩, ⟨82457785050723242, 17⟩, ⟨0, 0⟩, ⟨24547921519911317, 10⟩, ⟨82457785050723242, 17⟩),
  (⟨24625330614968399, 10⟩, ⟨86261703179066718, 17⟩, ⟨0, 0⟩, ⟨24625330614968399, 10⟩, ⟨86261703179066718, 17⟩, ⟨0, 0⟩, ⟨24625330614968399, 10⟩, ⟨86261703179066718, 17⟩),
  (⟨24637867731263400, 10⟩, ⟨72140878141502929, 17⟩, ⟨0, 0⟩, ⟨24637867731263400, 10⟩, ⟨72140878141502929, 17⟩, ⟨0, 0⟩, ⟨24637867731263400, 10⟩, ⟨72140878141502929, 17⟩),
  (⟨24871210543242502, 10⟩, ⟨15522361425981512, 17⟩, ⟨0, 0⟩, ⟨24871210543242502, 10⟩, ⟨15522361425981512, 17⟩, ⟨0, 0⟩, ⟨24871210543242502, 10⟩, ⟨15522361425981512, 17⟩),
  (⟨24668153477867502, 10⟩, ⟨88842185854639444, 17⟩, ⟨0, 0⟩, ⟨24668153477867502, 10⟩, ⟨88842185854639444, 17⟩, ⟨0, 0⟩, ⟨24668153477867502, 10⟩, ⟨88842185854639444, 17⟩),
  (⟨24679742136512832, 10⟩, ⟨31232209304590153, 17⟩, ⟨0, 0⟩, ⟨24679742136512832, 10⟩, ⟨31232209304590153, 17⟩, ⟨0, 0⟩, ⟨24679742136512832, 10⟩, ⟨31232209304590153, 17⟩),
  (⟨24788003311851020, 10⟩, ⟨44440822302560345, 17⟩, ⟨0, 0⟩, ⟨24788003311851020, 10⟩, ⟨44440822302560345, 17⟩, ⟨0, 0⟩, ⟨24788003311851020, 10⟩, ⟨44440822302560345, 17⟩),
  (⟨24664809022481856, 10⟩, ⟨92484794728194386, 17⟩, ⟨0, 0⟩, ⟨24664809022481856, 10⟩, ⟨92484794728194386, 17⟩, ⟨0, 0⟩, ⟨24664809022481856, 10⟩, ⟨92484794728194386, 17⟩),
  (⟨24729713679287829, 10⟩, ⟨39347224864463859, 17⟩, ⟨0, 0⟩, ⟨24729713679287829, 10⟩, ⟨39347224864463859, 17⟩, ⟨0, 0⟩, ⟨24729713679287829, 10⟩, ⟨39347224864463859, 17⟩),
  (⟨24879440124503546, 10⟩, ⟨42946338300248443, 17⟩, ⟨0, 0⟩, ⟨24879440124503546, 10⟩, ⟨42946338300248443, 17⟩, ⟨0, 0⟩, ⟨24879440124503546, 10⟩, ⟨42946338300248443, 17⟩),
  (⟨24716507283391315, 10⟩, ⟨32896104883258637, 17⟩, ⟨0, 0⟩, ⟨24716507283391315, 10⟩, ⟨32896104883258637, 17⟩, ⟨0, 0⟩, ⟨24716507283391315, 10⟩, ⟨32896104883258637, 17⟩),
  (⟨24621843661660398, 10⟩, ⟨22942215832506097, 17⟩, ⟨0, 0⟩, ⟨24621843661660398, 10⟩, ⟨22942215832506097, 17⟩, ⟨0, 0⟩, ⟨24621843661660398, 10⟩, ⟨22942215832506097, 17⟩),
  (⟨24872171273723240, 10⟩, ⟨91861165414306545, 17⟩, ⟨0, 0⟩, ⟨24872171273723240, 10⟩, ⟨91861165414306545, 17⟩, ⟨0, 0⟩, ⟨24872171273723240, 10⟩, ⟨91861165414306545, 17⟩),
  (⟨24825758966619279, 10⟩, ⟨10337276078091084, 17⟩, ⟨0, 0⟩, ⟨24825758966619279, 10⟩, ⟨10337276078091084, 17⟩, ⟨0, 0⟩, ⟨24825758966619279, 10⟩, ⟨10337276078091084, 17⟩),
  (⟨24865409797599013, 10⟩, ⟨11320989938934345, 17⟩, ⟨0, 0⟩, ⟨24865409797599013, 10⟩, ⟨11320989938934345, 17⟩, ⟨0, 0⟩, ⟨24865409797599013, 10⟩, ⟨11320989938934345, 17⟩),
  (⟨24554512600391875, 10⟩, ⟨14039262827534316, 17⟩, ⟨0, 0⟩, ⟨24554512600391875, 10⟩, ⟨14039262827534316, 17⟩, ⟨0, 0⟩, ⟨24554512600391875, 10⟩, ⟨14039262827534316, 17⟩),
  (⟨24567934299707515, 10⟩, ⟨25951517301533455, 17⟩, ⟨0, 0⟩, ⟨24567934299707515, 10⟩, ⟨25951517301533455, 17⟩, ⟨0, 0⟩, ⟨24567934299707515, 10⟩, ⟨25951517301533455, 17⟩),
  (⟨24778632755147442, 10⟩, ⟨99827894299836206, 17⟩, ⟨0, 0⟩, ⟨24778632755147442, 10⟩, ⟨99827894299836206, 17⟩, ⟨0, 0⟩, ⟨24778632755147442, 10⟩, ⟨99827894299836206, 17⟩),
  (⟨24537360922345659, 10⟩, ⟨48613438169280165, 17⟩, ⟨0, 0⟩, ⟨24537360922345659, 10⟩, ⟨48613438169280165, 17⟩, ⟨0, 0⟩, ⟨24537360922345659, 10⟩, ⟨48613438169280165, 17⟩),
  (⟨24810031396905691, 10⟩, ⟨31510099002298064, 18⟩, ⟨0, 0⟩, ⟨24810031396905691, 10⟩, ⟨31510099002298064, 18⟩, ⟨0, 0⟩, ⟨24810031396905691, 10⟩, ⟨31510099002298064, 18⟩),
  (⟨24733015668110312, 10⟩, ⟨15624195578216515, 17⟩, ⟨0, 0⟩, ⟨24733015668110312, 10⟩, ⟨15624195578216515, 17⟩, ⟨0, 0⟩, ⟨24733015668110312, 10⟩, ⟨15624195578216515, 17⟩),
  (⟨24563162830912108, 10⟩, ⟨38704206700508148, 17⟩, ⟨0, 0⟩, ⟨24563162830912108, 10⟩, ⟨38704206700508148, 17⟩, ⟨0, 0⟩, ⟨24563162830912108, 10⟩, ⟨38704206700508148, 17⟩),
  (⟨24697128334677350, 10⟩, ⟨44031417178778154, 17⟩, ⟨0, 0⟩, ⟨24697128334677350, 10⟩, ⟨44031417178778154, 17⟩, ⟨0, 0⟩, ⟨24697128334677350, 10⟩, ⟨44031417178778154, 17⟩),
  (⟨24730583082280625, 10⟩, ⟨24472456381415020, 17⟩, ⟨0, 0⟩, ⟨24730583082280625, 10⟩, ⟨24472456381415020, 17⟩, ⟨0, 0⟩, ⟨24730583082280625, 10⟩, ⟨24472456381415020, 17⟩),
  (⟨24532160982335755, 10⟩, ⟨17904096047869011, 17⟩, ⟨0, 0⟩, ⟨24532160982335755, 10⟩, ⟨17904096047869011, 17⟩, ⟨0, 0⟩, ⟨24532160982335755, 10⟩, ⟨17904096047869011, 17⟩),
  (⟨24848270291737658, 10⟩, ⟨23241175640969658, 17⟩, ⟨0, 0⟩, ⟨24848270291737658, 10⟩, ⟨23241175640969658, 17⟩, ⟨0, 0⟩, ⟨24848270291737658, 10⟩, ⟨23241175640969658, 17⟩),
  (⟨24752759076205241, 10⟩, ⟨72364251619459008, 17⟩, ⟨0, 0⟩, ⟨24752759076205241, 10⟩, ⟨72364251619459008, 17⟩, ⟨0, 0⟩, ⟨24752759076205241, 10⟩, ⟨72364251619459008, 17⟩),
  (⟨24712485072004879, 10⟩, ⟨29088355940497801, 17⟩, ⟨0, 0⟩, ⟨24712485072004879, 10⟩, ⟨29088355940497801, 17⟩, ⟨0, 0⟩, ⟨24712485072004879, 10⟩, ⟨29088355940497801, 17⟩),
  (⟨24643340772588286, 10⟩, ⟨33954715921204270, 17⟩, ⟨0, 0⟩, ⟨24643340772588286, 10⟩, ⟨33954715921204270, 17⟩, ⟨0, 0⟩, ⟨24643340772588286, 10⟩, ⟨33954715921204270, 17⟩),
  (⟨24574005135194901, 10⟩, ⟨39623008690822326, 17⟩, ⟨0, 0⟩, ⟨24574005135194901, 10⟩, ⟨39623008690822326, 17⟩, ⟨0, 0⟩, ⟨24574005135194901, 10⟩, ⟨39623008690822326, 17⟩),
  (⟨24744731719254735, 10⟩, ⟨34008783430862888, 17⟩, ⟨0, 0⟩, ⟨24744731719254735, 10⟩, ⟨34008783430862888, 17⟩, ⟨0, 0⟩, ⟨24744731719254735, 10⟩, ⟨34008783430862888, 17⟩),
  (⟨24668914446022995, 10⟩, ⟨67106457986717494, 17⟩, ⟨0, 0⟩, ⟨24668914446022995, 10⟩, ⟨67106457986717494, 17⟩, ⟨0, 0⟩, ⟨24668914446022995, 10⟩, ⟨67106457986717494, 17⟩),
  (⟨24808578169868994, 10⟩, ⟨61970420044824814, 17⟩, ⟨0, 0⟩, ⟨24808578169868994, 10⟩, ⟨61970420044824814, 17⟩, ⟨0, 0⟩, ⟨24808578169868994, 10⟩, ⟨61970420044824814, 17⟩),
  (⟨24618779725650442, 10⟩, ⟨81340843071585944, 17⟩, ⟨0, 0⟩, ⟨24618779725650442, 10⟩, ⟨81340843071585944, 17⟩, ⟨0, 0⟩, ⟨24618779725650442, 10⟩, ⟨81340843071585944, 17⟩),
  (⟨24614861320532039, 10⟩, ⟨21387410252053773, 17⟩, ⟨0, 0⟩, ⟨24614861320532039, 10⟩, ⟨21387410252053773, 17⟩, ⟨0, 0⟩, ⟨24614861320532039, 10⟩, ⟨21387410252053773, 17⟩),
  (⟨24523789921755902, 10⟩, ⟨46132873949984665, 18⟩, ⟨0, 0⟩, ⟨24523789921755902, 10⟩, ⟨46132873949984665, 18⟩, ⟨0, 0⟩, ⟨24523789921755902, 10⟩, ⟨46132873949984665, 18⟩),
  (⟨24850867735772710, 10⟩, ⟨61090951584103315, 17⟩, ⟨0, 0⟩, ⟨24850867735772710, 10⟩, ⟨61090951584103315, 17⟩, ⟨0, 0⟩, ⟨24850867735772710, 10⟩, ⟨61090951584103315, 17⟩),
  (⟨24834344571716837, 10⟩, ⟨14181644218705736, 17⟩, ⟨0, 0⟩, ⟨24834344571716837, 10⟩, ⟨14181644218705736, 17⟩, ⟨0, 0⟩, ⟨24834344571716837, 10⟩, ⟨14181644218705736, 17⟩),
  (⟨24798641141778952, 10⟩, ⟨21455091528968617, 17⟩, ⟨0, 0⟩, ⟨24798641141778952, 10⟩, ⟨21455091528968617, 17⟩, ⟨0, 0⟩, ⟨24798641141778952, 10⟩, ⟨21455091528968617, 17⟩),
  (⟨24688334724259763, 10⟩, ⟨92091130212136041, 17⟩, ⟨0, 0⟩, ⟨24688334724259763, 10⟩, ⟨92091130212136041, 17⟩, ⟨0, 0⟩, ⟨24688334724259763, 10⟩, ⟨92091130212136041, 17⟩),
  (⟨24801937769778925, 10⟩, ⟨44396658975481429, 17⟩, ⟨0, 0⟩, ⟨24801937769778925, 10⟩, ⟨44396658975481429, 17⟩, ⟨0, 0⟩, ⟨24801937769778925, 10⟩, ⟨44396658975481429, 17⟩),
  (⟨24732332787141534, 10⟩, ⟨96995435326667323, 17⟩, ⟨0, 0⟩, ⟨24732332787141534, 10⟩, ⟨96995435326667323, 17⟩, ⟨0, 0⟩, ⟨24732332787141534, 10⟩, ⟨96995435326667323, 17⟩),
  (⟨24613243639596263, 10⟩, ⟨74599301968623999, 17⟩, ⟨0, 0⟩, ⟨24613243639596263, 10⟩, ⟨74599301968623999, 17⟩, ⟨0, 0⟩, ⟨24613243639596263, 10⟩, ⟨74599301968623999, 17⟩),
  (⟨24872797523062895, 10⟩, ⟨69551657611833340, 17⟩, ⟨0, 0⟩, ⟨24872797523062895, 10⟩, ⟨69551657611833340, 17⟩, ⟨0, 0⟩, ⟨24872797523062895, 10⟩, ⟨69551657611833340, 17⟩),
  (⟨24712154854276390, 10⟩, ⟨86928218639387944, 17⟩, ⟨0, 0⟩, ⟨24712154854276390, 10⟩, ⟨86928218639387944, 17⟩, ⟨0, 0⟩, ⟨24712154854276390, 10⟩, ⟨86928218639387944, 17⟩),
  (⟨24690973033385011, 10⟩, ⟨92617229879326524, 17⟩, ⟨0, 0⟩, ⟨24690973033385011, 10⟩, ⟨92617229879326524, 17⟩, ⟨0, 0⟩, ⟨24690973033385011, 10⟩, ⟨92617229879326524, 17⟩),
  (⟨24683268519671685, 10⟩, ⟨23230145622942211, 17⟩, ⟨0, 0⟩, ⟨24683268519671685, 10⟩, ⟨23230145622942211, 17⟩, ⟨0, 0⟩, ⟨24683268519671685, 10⟩, ⟨23230145622942211, 17⟩),
  (⟨24528260213771379, 10⟩, ⟨76342559128770360, 17⟩, ⟨0, 0⟩, ⟨24528260213771379, 10⟩, ⟨76342559128770360, 17⟩, ⟨0, 0⟩, ⟨24528260213771379, 10⟩, ⟨76342559128770360, 17⟩),
  (⟨24821138668818781, 10⟩, ⟨39723964694117553, 17⟩, ⟨0, 0⟩, ⟨24821138668818781, 10⟩, ⟨39723964694117553, 17⟩, ⟨0, 0⟩, ⟨24821138668818781, 10⟩, ⟨39723964694117553, 17⟩),
  (⟨24866245472650053, 10⟩, ⟨17303848290487045, 17⟩, ⟨0, 0⟩, ⟨24866245472650053, 10⟩, ⟨17303848290487045, 17⟩, ⟨0, 0⟩, ⟨24866245472650053, 10⟩, ⟨17303848290487045, 17⟩),
  (⟨24709901683380767, 10⟩, ⟨43281655075912639, 17⟩, ⟨0, 0⟩, ⟨24709901683380767, 10⟩, ⟨43281655075912639, 17⟩, ⟨0, 0⟩, ⟨24709901683380767, 10⟩, ⟨43281655075912639, 17⟩),
  (⟨24576813055786975, 10⟩, ⟨92063258506258427, 17⟩, ⟨0, 0⟩, ⟨24576813055786975, 10⟩, ⟨92063258506258427, 17⟩, ⟨0, 0⟩, ⟨24576813055786975, 10⟩, ⟨92063258506258427, 17⟩),
  (⟨24744869499838795, 10⟩, ⟨81427996361406663, 17⟩, ⟨0, 0⟩, ⟨24744869499838795, 10⟩, ⟨81427996361406663, 17⟩, ⟨0, 0⟩, ⟨24744869499838795, 10⟩, ⟨81427996361406663, 17⟩),
  (⟨24841765853714580, 10⟩, ⟨22579823651563624, 17⟩, ⟨0, 0⟩, ⟨24841765853714580, 10⟩, ⟨22579823651563624, 17⟩, ⟨0, 0⟩, ⟨24841765853714580, 10⟩, ⟨22579823651563624, 17⟩),
  (⟨24717071129169273, 10⟩, ⟨58081787460593226, 19⟩, ⟨0, 0⟩, ⟨24717071129169273, 10⟩, ⟨58081787460593226, 19⟩, ⟨0, 0⟩, ⟨24717071129169273, 10⟩, ⟨58081787460593226, 19⟩),
  (⟨24840472855744273, 10⟩, ⟨47135901836569694, 17⟩, ⟨0, 0⟩, ⟨24840472855744273, 10⟩, ⟨47135901836569694, 17⟩, ⟨0, 0⟩, ⟨24840472855744273, 10⟩, ⟨47135901836569694, 17⟩),
  (⟨24762368806137010, 10⟩, ⟨32691692460873911, 17⟩, ⟨0, 0⟩, ⟨24762368806137010, 10⟩, ⟨32691692460873911, 17⟩, ⟨0, 0⟩, ⟨24762368806137010, 10⟩, ⟨32691692460873911, 17⟩),
  (⟨24689853126590899, 10⟩, ⟨90728677693108872, 17⟩, ⟨0, 0⟩, ⟨24689853126590899, 10⟩, ⟨90728677693108872, 17⟩, ⟨0, 0⟩, ⟨24689853126590899, 10⟩, ⟨90728677693108872, 17⟩),
  (⟨24795003294364666, 10⟩, ⟨20152919793663593, 17⟩, ⟨0, 0⟩, ⟨24795003294364666, 10⟩, ⟨20152919793663593, 17⟩, ⟨0, 0⟩, ⟨24795003294364666, 10⟩, ⟨20152919793663593, 17⟩),
  (⟨24716647509318590, 10⟩, ⟨80227275782024732, 17⟩, ⟨0, 0⟩, ⟨24716647509318590, 10⟩, ⟨80227275782024732, 17⟩, ⟨0, 0⟩, ⟨24716647509318590, 10⟩, ⟨80227275782024732, 17⟩),
  (⟨24832958467613147, 10⟩, ⟨71105525732977348, 17⟩, ⟨0, 0⟩, ⟨24832958467613147, 10⟩, ⟨71105525732977348, 17⟩, ⟨0, 0⟩, ⟨24832958467613147, 10⟩, ⟨71105525732977348, 17⟩),
  (⟨24833274799833698, 10⟩, ⟨83981027725892776, 17⟩, ⟨0, 0⟩, ⟨24833274799833698, 10⟩, ⟨83981027725892776, 17⟩, ⟨0, 0⟩, ⟨24833274799833698, 10⟩, ⟨83981027725892776, 17⟩),
  (⟨24853793655026895, 10⟩, ⟨89756588182488228, 17⟩, ⟨0, 0⟩, ⟨24853793655026895, 10⟩, ⟨89756588182488228, 17⟩, ⟨0, 0⟩, ⟨24853793655026895, 10⟩, ⟨89756588182488228, 17⟩),
  (⟨24622327222575224, 10⟩, ⟨98253222576269028, 17⟩, ⟨0, 0⟩, ⟨24622327222575224, 10⟩, ⟨98253222576269028, 17⟩, ⟨0, 0⟩, ⟨24622327222575224, 10⟩, ⟨98253222576269028, 17⟩),
  (⟨24556233356763618, 10⟩, ⟨84563047103132405, 17⟩, ⟨0, 0⟩, ⟨24556233356763618, 10⟩, ⟨84563047103132405, 17⟩, ⟨0, 0⟩, ⟨24556233356763618, 10⟩, ⟨84563047103132405, 17⟩),
  (⟨24560913289971226, 10⟩, ⟨93726799249548787, 17⟩, ⟨0, 0⟩, ⟨24560913289971226, 10⟩, ⟨93726799249548787, 17⟩, ⟨0, 0⟩, ⟨24560913289971226, 10⟩, ⟨93726799249548787, 17⟩),
  (⟨24631697444134047, 10⟩, ⟨64185743535321937, 17⟩, ⟨0, 0⟩, ⟨24631697444134047, 10⟩, ⟨64185743535321937, 17⟩, ⟨0, 0⟩, ⟨24631697444134047, 10⟩, ⟨64185743535321937, 17⟩),
  (⟨24561121753787650, 10⟩, ⟨84089765167874608, 17⟩, ⟨0, 0⟩, ⟨24561121753787650, 10⟩, ⟨84089765167874608, 17⟩, ⟨0, 0⟩, ⟨24561121753787650, 10⟩, ⟨84089765167874608, 17⟩),
  (⟨24680501172148883, 10⟩, ⟨79286966944781823, 17⟩, ⟨0, 0⟩, ⟨24680501172148883, 10⟩, ⟨79286966944781823, 17⟩, ⟨0, 0⟩, ⟨24680501172148883, 10⟩, ⟨79286966944781823, 17⟩),
  (⟨24766490240677344, 10⟩, ⟨35986334343627335, 17⟩, ⟨0, 0⟩, ⟨24766490240677344, 10⟩, ⟨35986334343627335, 17⟩, ⟨0, 0⟩, ⟨24766490240677344, 10⟩, ⟨35986334343627335, 17⟩),
  (⟨24812462824797197, 10⟩, ⟨51138770899864106, 17⟩, ⟨0, 0⟩, ⟨24812462824797197, 10⟩, ⟨51138770899864106, 17⟩, ⟨0, 0⟩, ⟨24812462824797197, 10⟩, ⟨51138770899864106, 17⟩),
  (⟨24778736833069250, 10⟩, ⟨16151216443091532, 17⟩, ⟨0, 0⟩, ⟨24778736833069250, 10⟩, ⟨16151216443091532, 17⟩, ⟨0, 0⟩, ⟨24778736833069250, 10⟩, ⟨16151216443091532, 17⟩)]

/-- Entries 900 to 999. -/
def C2t_9 : List (Dec × Dec × Dec × Dec × Dec × Dec × Dec × Dec) := [
  (⟨24762495438908166, 10⟩, ⟨49194653178656289, 17⟩, ⟨0, 0⟩, ⟨24762495438908166, 10⟩, ⟨49194653178656289, 17⟩, ⟨0, 0⟩, ⟨24762495438908166, 10⟩, ⟨49194653178656289, 17⟩),
  (⟨24556621991153471, 10⟩, ⟨64235372207664254, 17⟩, ⟨0, 0⟩, ⟨24556621991153471, 10⟩, ⟨64235372207664254, 17⟩, ⟨0, 0⟩, ⟨24556621991153471, 10⟩, ⟨64235372207664254, 17⟩),
  (⟨24702852509627901, 10⟩, ⟨86292677876050927, 17⟩, ⟨0, 0⟩, ⟨24702852509627901, 10⟩, ⟨86292677876050927, 17⟩, ⟨0, 0⟩, ⟨24702852509627901, 10⟩, ⟨86292677876050927, 17⟩),
  (⟨24723316828327323, 10⟩, ⟨90338243392133877, 17⟩, ⟨0, 0⟩, ⟨24723316828327323, 10⟩, ⟨90338243392133877, 17⟩, ⟨0, 0⟩, ⟨24723316828327323, 10⟩, ⟨90338243392133877, 17⟩),
  (⟨24842608111758824, 10⟩, ⟨25087936257638288, 17⟩, ⟨0, 0⟩, ⟨24842608111758824, 10⟩, ⟨25087936257638288, 17⟩, ⟨0, 0⟩, ⟨24842608111758824, 10⟩, ⟨25087936257638288, 17⟩),
  (⟨24824371471149041, 10⟩, ⟨39882205475216992, 17⟩, ⟨0, 0⟩, ⟨24824371471149041, 10⟩, ⟨39882205475216992, 17⟩, ⟨0, 0⟩, ⟨24824371471149041, 10⟩, ⟨39882205475216992, 17⟩),
  (⟨24665220812333138, 10⟩, ⟨47089074968592803, 17⟩, ⟨0, 0⟩, ⟨24665220812333138, 10⟩, ⟨47089074968592803, 17⟩, ⟨0, 0⟩, ⟨24665220812333138, 10⟩, ⟨47089074968592803, 17⟩),
  (⟨24652170203440315, 10⟩, ⟨69007290627988960, 17⟩, ⟨0, 0⟩, ⟨24652170203440315, 10⟩, ⟨69007290627988960, 17⟩, ⟨0, 0⟩, ⟨24652170203440315, 10⟩, ⟨69007290627988960, 17⟩),
  (⟨24880473523684484, 10⟩, ⟨38732100403813396, 17⟩, ⟨0, 0⟩, ⟨24880473523684484, 10⟩, ⟨38732100403813396, 17⟩, ⟨0, 0⟩, ⟨24880473523684484, 10⟩, ⟨38732100403813396, 17⟩),
  (⟨24536675277302531, 10⟩, ⟨79855172505561844, 18⟩, ⟨0, 0⟩, ⟨24536675277302531, 10⟩, ⟨79855172505561844, 18⟩, ⟨0, 0⟩, ⟨24536675277302531, 10⟩, ⟨79855172505561844, 18⟩),
  (⟨24800071270068027, 10⟩, ⟨47753685774314614, 17⟩, ⟨0, 0⟩, ⟨24800071270068027, 10⟩, ⟨47753685774314614, 17⟩, ⟨0, 0⟩, ⟨24800071270068027, 10⟩, ⟨47753685774314614, 17⟩),
  (⟨24554256309934459, 10⟩, ⟨35141513711857930, 17⟩, ⟨0, 0⟩, ⟨24554256309934459, 10⟩, ⟨35141513711857930, 17⟩, ⟨0, 0⟩, ⟨24554256309934459, 10⟩, ⟨35141513711857930, 17⟩),
  (⟨24567025564179034, 10⟩, ⟨78594301545796474, 17⟩, ⟨0, 0⟩, ⟨24567025564179034, 10⟩, ⟨78594301545796474, 17⟩, ⟨0, 0⟩, ⟨24567025564179034, 10⟩, ⟨78594301545796474, 17⟩),
  (⟨24859241669970052, 10⟩, ⟨57401921696744607, 17⟩, ⟨0, 0⟩, ⟨24859241669970052, 10⟩, ⟨57401921696744607, 17⟩, ⟨0, 0⟩, ⟨24859241669970052, 10⟩, ⟨57401921696744607, 17⟩),
  (⟨24828758075094894, 10⟩, ⟨37024645276452539, 17⟩, ⟨0, 0⟩, ⟨24828758075094894, 10⟩, ⟨37024645276452539, 17⟩, ⟨0, 0⟩, ⟨24828758075094894, 10⟩, ⟨37024645276452539, 17⟩),
  (⟨24585144812986837, 10⟩, ⟨13133677963587997, 17⟩, ⟨0, 0⟩, ⟨24585144812986837, 10⟩, ⟨13133677963587997, 17⟩, ⟨0, 0⟩, ⟨24585144812986837, 10⟩, ⟨13133677963587997, 17⟩),
  (⟨24868135155090559, 10⟩, ⟨68033472696893349, 17⟩, ⟨0, 0⟩, ⟨24868135155090559, 10⟩, ⟨68033472696893349, 17⟩, ⟨0, 0⟩, ⟨24868135155090559, 10⟩, ⟨68033472696893349, 17⟩),
  (⟨24649975993751464, 10⟩, ⟨51983107202972800, 17⟩, ⟨0, 0⟩, ⟨24649975993751464, 10⟩, ⟨51983107202972800, 17⟩, ⟨0, 0⟩, ⟨24649975993751464, 10⟩, ⟨51983107202972800, 17⟩),
  (⟨24806473428479033, 10⟩, ⟨64498136696861019, 17⟩, ⟨0, 0⟩, ⟨24806473428479033, 10⟩, ⟨64498136696861019, 17⟩, ⟨0, 0⟩, ⟨24806473428479033, 10⟩, ⟨64498136696861019, 17⟩),
  (⟨24743565963906022, 10⟩, ⟨15589270486470019, 17⟩, ⟨0, 0⟩, ⟨24743565963906022, 10⟩, ⟨15589270486470019, 17⟩, ⟨0, 0⟩, ⟨24743565963906022, 10⟩, ⟨15589270486470019, 17⟩),
  (⟨24741052319609728, 10⟩, ⟨38006381851035331, 17⟩, ⟨0, 0⟩, ⟨24741052319609728, 10⟩, ⟨38006381851035331, 17⟩, ⟨0, 0⟩, ⟨24741052319609728, 10⟩, ⟨38006381851035331, 17⟩),
  (⟨24766800330693666, 10⟩, ⟨82731785332361452, 17⟩, ⟨0, 0⟩, ⟨24766800330693666, 10⟩, ⟨82731785332361452, 17⟩, ⟨0, 0⟩, ⟨24766800330693666, 10⟩, ⟨82731785332361452, 17⟩),
  (⟨24869153372267121, 10⟩, ⟨50343984787446516, 17⟩, ⟨0, 0⟩, ⟨24869153372267121, 10⟩, ⟨50343984787446516, 17⟩, ⟨0, 0⟩, ⟨24869153372267121, 10⟩, ⟨50343984787446516, 17⟩),
  (⟨24530475506282132, 10⟩, ⟨40663921407474335, 17⟩, ⟨0, 0⟩, ⟨24530475506282132, 10⟩, ⟨40663921407474335, 17⟩, ⟨0, 0⟩, ⟨24530475506282132, 10⟩, ⟨40663921407474335, 17⟩),
  (⟨24822530202799914, 10⟩, ⟨23619585972176060, 17⟩, ⟨0, 0⟩, ⟨24822530202799914, 10⟩, ⟨23619585972176060, 17⟩, ⟨0, 0⟩, ⟨24822530202799914, 10⟩, ⟨23619585972176060, 17⟩),
  (⟨24573382406452266, 10⟩, ⟨46432515426696719, 17⟩, ⟨0, 0⟩, ⟨24573382406452266, 10⟩, ⟨46432515426696719, 17⟩, ⟨0, 0⟩, ⟨24573382406452266, 10⟩, ⟨46432515426696719, 17⟩),
  (⟨24808915494101858, 10⟩, ⟨43258653850862117, 17⟩, ⟨0, 0⟩, ⟨24808915494101858, 10⟩, ⟨43258653850862117, 17⟩, ⟨0, 0⟩, ⟨24808915494101858, 10⟩, ⟨43258653850862117, 17⟩),
  (⟨24758533793667187, 10⟩, ⟨66792541893259483, 17⟩, ⟨0, 0⟩, ⟨24758533793667187, 10⟩, ⟨66792541893259483, 17⟩, ⟨0, 0⟩, ⟨24758533793667187, 10⟩, ⟨66792541893259483, 17⟩),
  (⟨24846902112266365, 10⟩, ⟨26432881776140671, 18⟩, ⟨0, 0⟩, ⟨24846902112266365, 10⟩, ⟨26432881776140671, 18⟩, ⟨0, 0⟩, ⟨24846902112266365, 10⟩, ⟨26432881776140671, 18⟩),
  (⟨24542797429116545, 10⟩, ⟨93356505357296626, 17⟩, ⟨0, 0⟩, ⟨24542797429116545, 10⟩, ⟨93356505357296626, 17⟩, ⟨0, 0⟩, ⟨24542797429116545, 10⟩, ⟨93356505357296626, 17⟩),
  (⟨24876492400760739, 10⟩, ⟨31478113669637287, 17⟩, ⟨0, 0⟩, ⟨24876492400760739, 10⟩, ⟨31478113669637287, 17⟩, ⟨0, 0⟩, ⟨24876492400760739, 10⟩, ⟨31478113669637287, 17⟩),
  (⟨24671138554847371, 10⟩, ⟨54148590979233413, 17⟩, ⟨0, 0⟩, ⟨24671138554847371, 10⟩, ⟨54148590979233413, 17⟩, ⟨0, 0⟩, ⟨24671138554847371, 10⟩, ⟨54148590979233413, 17⟩),
  (⟨24766797254001424, 10⟩, ⟨88983204739485100, 17⟩, ⟨0, 0⟩, ⟨24766797254001424, 10⟩, ⟨88983204739485100, 17⟩, ⟨0, 0⟩, ⟨24766797254001424, 10⟩, ⟨88983204739485100, 17⟩),
  (⟨24684789935457315, 10⟩, ⟨12338044659141234, 17⟩, ⟨0, 0⟩, ⟨24684789935457315, 10⟩, ⟨12338044659141234, 17⟩, ⟨0, 0⟩, ⟨24684789935457315, 10⟩, ⟨12338044659141234, 17⟩),
  (⟨24555138304026681, 10⟩, ⟨74780282122249775, 17⟩, ⟨0, 0⟩, ⟨24555138304026681, 10⟩, ⟨74780282122249775, 17⟩, ⟨0, 0⟩, ⟨24555138304026681, 10⟩, ⟨74780282122249775, 17⟩),
  (⟨24761654099036488, 10⟩, ⟨15152364040629496, 17⟩, ⟨0, 0⟩, ⟨24761654099036488, 10⟩, ⟨15152364040629496, 17⟩, ⟨0, 0⟩, ⟨24761654099036488, 10⟩, ⟨15152364040629496, 17⟩),
  (⟨24700714362279736, 10⟩, ⟨10110492761340395, 17⟩, ⟨0, 0⟩, ⟨24700714362279736, 10⟩, ⟨10110492761340395, 17⟩, ⟨0, 0⟩, ⟨24700714362279736, 10⟩, ⟨10110492761340395, 17⟩),
  (⟨24762722370478394, 10⟩, ⟨58531011442829750, 17⟩, ⟨0, 0⟩, ⟨24762722370478394, 10⟩, ⟨58531011442829750, 17⟩, ⟨0, 0⟩, ⟨24762722370478394, 10⟩, ⟨58531011442829750, 17⟩),
  (⟨24870006080909153, 10⟩, ⟨27219476455440983, 17⟩, ⟨0, 0⟩, ⟨24870006080909153, 10⟩, ⟨27219476455440983, 17⟩, ⟨0, 0⟩, ⟨24870006080909153, 10⟩, ⟨27219476455440983, 17⟩),
  (⟨24578560995145091, 10⟩, ⟨82494245579518333, 17⟩, ⟨0, 0⟩, ⟨24578560995145091, 10⟩, ⟨82494245579518333, 17⟩, ⟨0, 0⟩, ⟨24578560995145091, 10⟩, ⟨82494245579518333, 17⟩),
  (⟨24530301938345903, 10⟩, ⟨88854398220033570, 17⟩, ⟨0, 0⟩, ⟨24530301938345903, 10⟩, ⟨88854398220033570, 17⟩, ⟨0, 0⟩, ⟨24530301938345903, 10⟩, ⟨88854398220033570, 17⟩),
  (⟨24673399491989836, 10⟩, ⟨85243737677186693, 17⟩, ⟨0, 0⟩, ⟨24673399491989836, 10⟩, ⟨85243737677186693, 17⟩, ⟨0, 0⟩, ⟨24673399491989836, 10⟩, ⟨85243737677186693, 17⟩),
  (⟨24796053390784743, 10⟩, ⟨10364471901329775, 17⟩, ⟨0, 0⟩, ⟨24796053390784743, 10⟩, ⟨10364471901329775, 17⟩, ⟨0, 0⟩, ⟨24796053390784743, 10⟩, ⟨10364471901329775, 17⟩),
  (⟨24821892305272906, 10⟩, ⟨85136772055755450, 17⟩, ⟨0, 0⟩, ⟨24821892305272906, 10⟩, ⟨85136772055755450, 17⟩, ⟨0, 0⟩, ⟨24821892305272906, 10⟩, ⟨85136772055755450, 17⟩),
  (⟨24687797663936238, 10⟩, ⟨31501360593936079, 17⟩, ⟨0, 0⟩, ⟨24687797663936238, 10⟩, ⟨31501360593936079, 17⟩, ⟨0, 0⟩, ⟨24687797663936238, 10⟩, ⟨31501360593936079, 17⟩),
  (⟨24596581666931487, 10⟩, ⟨26184989002094872, 18⟩, ⟨0, 0⟩, ⟨24596581666931487, 10⟩, ⟨26184989002094872, 18⟩, ⟨0, 0⟩, ⟨24596581666931487, 10⟩, ⟨26184989002094872, 18⟩),
  (⟨24706737401708108, 10⟩, ⟨68617836185867886, 17⟩, ⟨0, 0⟩, ⟨24706737401708108, 10⟩, ⟨68617836185867886, 17⟩, ⟨0, 0⟩, ⟨24706737401708108, 10⟩, ⟨68617836185867886, 17⟩),
  (⟨24757716118864245, 10⟩, ⟨86263221440041449, 17⟩, ⟨0, 0⟩, ⟨24757716118864245, 10⟩, ⟨86263221440041449, 17⟩, ⟨0, 0⟩, ⟨24757716118864245, 10⟩, ⟨86263221440041449, 17⟩),
  (⟨24620435137908608, 10⟩, ⟨13845165378393809, 17⟩, ⟨0, 0⟩, ⟨24620435137908608, 10⟩, ⟨13845165378393809, 17⟩, ⟨0, 0⟩, ⟨24620435137908608, 10⟩, ⟨13845165378393809, 17⟩),
  (⟨24606962154315053, 10⟩, ⟨50738902634032745, 17⟩, ⟨0, 0⟩, ⟨24606962154315053, 10⟩, ⟨50738902634032745, 17⟩, ⟨0, 0⟩, ⟨24606962154315053, 10⟩, ⟨50738902634032745, 17⟩),
  (⟨24651859741339101, 10⟩, ⟨60170963000810551, 17⟩, ⟨0, 0⟩, ⟨24651859741339101, 10⟩, ⟨60170963000810551, 17⟩, ⟨0, 0⟩, ⟨24651859741339101, 10⟩, ⟨60170963000810551, 17⟩),
  (⟨24576283606016114, 10⟩, ⟨81348610705140412, 17⟩, ⟨0, 0⟩, ⟨24576283606016114, 10⟩, ⟨81348610705140412, 17⟩, ⟨0, 0⟩, ⟨24576283606016114, 10⟩, ⟨81348610705140412, 17⟩),
  (⟨24751258635467957, 10⟩, ⟨98997265238524434, 17⟩, ⟨0, 0⟩, ⟨24751258635467957, 10⟩, ⟨98997265238524434, 17⟩, ⟨0, 0⟩, ⟨24751258635467957, 10⟩, ⟨98997265238524434, 17⟩),
  (⟨24781676281147269, 10⟩, ⟨66622334573267761, 17⟩, ⟨0, 0⟩, ⟨24781676281147269, 10⟩, ⟨66622334573267761, 17⟩, ⟨0, 0⟩, ⟨24781676281147269, 10⟩, ⟨66622334573267761, 17⟩),
  (⟨24561069287919658, 10⟩, ⟨46263148190633341, 17⟩, ⟨0, 0⟩, ⟨24561069287919658, 10⟩, ⟨46263148190633341, 17⟩, ⟨0, 0⟩, ⟨24561069287919658, 10⟩, ⟨46263148190633341, 17⟩),
  (⟨24532186962420200, 10⟩, ⟨44825640437719960, 17⟩, ⟨0, 0⟩, ⟨24532186962420200, 10⟩, ⟨44825640437719960, 17⟩, ⟨0, 0⟩, ⟨24532186962420200, 10⟩, ⟨44825640437719960, 17⟩),
  (⟨24543520948152822, 10⟩, ⟨44573548884367908, 17⟩, ⟨0, 0⟩, ⟨24543520948152822, 10⟩, ⟨44573548884367908, 17⟩, ⟨0, 0⟩, ⟨24543520948152822, 10⟩, ⟨44573548884367908, 17⟩),
  (⟨24680317084885892, 10⟩, ⟨63452149786611156, 17⟩, ⟨0, 0⟩, ⟨24680317084885892, 10⟩, ⟨63452149786611156, 17⟩, ⟨0, 0⟩, ⟨24680317084885892, 10⟩, ⟨63452149786611156, 17⟩),
  (⟨24557350132333627, 10⟩, ⟨17016395643314419, 17⟩, ⟨0, 0⟩, ⟨24557350132333627, 10⟩, ⟨17016395643314419, 17⟩, ⟨0, 0⟩, ⟨24557350132333627, 10⟩, ⟨17016395643314419, 17⟩),
  (⟨24796708761648601, 10⟩, ⟨53570881835392081, 17⟩, ⟨0, 0⟩, ⟨24796708761648601, 10⟩, ⟨53570881835392081, 17⟩, ⟨0, 0⟩, ⟨24796708761648601, 10⟩, ⟨53570881835392081, 17⟩),
  (⟨24816323132597776, 10⟩, ⟨99277669353751563, 17⟩, ⟨0, 0⟩, ⟨24816323132597776, 10⟩, ⟨99277669353751563, 17⟩, ⟨0, 0⟩, ⟨24816323132597776, 10⟩, ⟨99277669353751563, 17⟩),
  (⟨24878594971955870, 10⟩, ⟨40777067552933521, 17⟩, ⟨0, 0⟩, ⟨24878594971955870, 10⟩, ⟨40777067552933521, 17⟩, ⟨0, 0⟩, ⟨24878594971955870, 10⟩, ⟨40777067552933521, 17⟩),
  (⟨24554465686912085, 10⟩, ⟨11005732970505111, 18⟩, ⟨0, 0⟩, ⟨24554465686912085, 10⟩, ⟨11005732970505111, 18⟩, ⟨0, 0⟩, ⟨24554465686912085, 10⟩, ⟨11005732970505111, 18⟩),
  (⟨24699900331166028, 10⟩, ⟨26694065041641291, 17⟩, ⟨0, 0⟩, ⟨24699900331166028, 10⟩, ⟨26694065041641291, 17⟩, ⟨0, 0⟩, ⟨24699900331166028, 10⟩, ⟨26694065041641291, 17⟩),
  (⟨24760652424442736, 10⟩, ⟨84434532795628980, 17⟩, ⟨0, 0⟩, ⟨24760652424442736, 10⟩, ⟨84434532795628980, 17⟩, ⟨0, 0⟩, ⟨24760652424442736, 10⟩, ⟨84434532795628980, 17⟩),
  (⟨24867901710045487, 10⟩, ⟨73550280517275801, 17⟩, ⟨0, 0⟩, ⟨24867901710045487, 10⟩, ⟨73550280517275801, 17⟩, ⟨0, 0⟩, ⟨24867901710045487, 10⟩, ⟨73550280517275801, 17⟩),
  (⟨24522541455926606, 10⟩, ⟨81005681273821017, 17⟩, ⟨0, 0⟩, ⟨24522541455926606, 10⟩, ⟨81005681273821017, 17⟩, ⟨0, 0⟩, ⟨24522541455926606, 10⟩, ⟨81005681273821017, 17⟩),
  (⟨24824238059746060, 10⟩, ⟨66086198570484311, 17⟩, ⟨0, 0⟩, ⟨24824238059746060, 10⟩, ⟨66086198570484311, 17⟩, ⟨0, 0⟩, ⟨24824238059746060, 10⟩, ⟨66086198570484311, 17⟩),
  (⟨24657884130727989, 10⟩, ⟨60503096836465153, 17⟩, ⟨0, 0⟩, ⟨24657884130727989, 10⟩, ⟨60503096836465153, 17⟩, ⟨0, 0⟩, ⟨24657884130727989, 10⟩, ⟨60503096836465153, 17⟩),
  (⟨24598630209806501, 10⟩, ⟨49265646586375167, 17⟩, ⟨0, 0⟩, ⟨24598630209806501, 10⟩, ⟨49265646586375167, 17⟩, ⟨0, 0⟩, ⟨24598630209806501, 10⟩, ⟨49265646586375167, 17⟩),
  (⟨24524126617432535, 10⟩, ⟨63397103843394786, 17⟩, ⟨0, 0⟩, ⟨24524126617432535, 10⟩, ⟨63397103843394786, 17⟩, ⟨0, 0⟩, ⟨24524126617432535, 10⟩, ⟨63397103843394786, 17⟩),
  (⟨24843919314734424, 10⟩, ⟨87128349256482585, 17⟩, ⟨0, 0⟩, ⟨24843919314734424, 10⟩, ⟨87128349256482585, 17⟩, ⟨0, 0⟩, ⟨24843919314734424, 10⟩, ⟨87128349256482585, 17⟩),
  (⟨24810910791841755, 10⟩, ⟨41418388438982456, 17⟩, ⟨0, 0⟩, ⟨24810910791841755, 10⟩, ⟨41418388438982456, 17⟩, ⟨0, 0⟩, ⟨24810910791841755, 10⟩, ⟨41418388438982456, 17⟩),
  (⟨24757688809830556, 10⟩, ⟨25608117703146527, 18⟩, ⟨0, 0⟩, ⟨24757688809830556, 10⟩, ⟨25608117703146527, 18⟩, ⟨0, 0⟩, ⟨24757688809830556, 10⟩, ⟨25608117703146527, 18⟩),
  (⟨24860658739364599, 10⟩, ⟨44191705559353167, 17⟩, ⟨0, 0⟩, ⟨24860658739364599, 10⟩, ⟨44191705559353167, 17⟩, ⟨0, 0⟩, ⟨24860658739364599, 10⟩, ⟨44191705559353167, 17⟩),
  (⟨24701578380734255, 10⟩, ⟨96494841260599951, 17⟩, ⟨0, 0⟩, ⟨24701578380734255, 10⟩, ⟨96494841260599951, 17⟩, ⟨0, 0⟩, ⟨24701578380734255, 10⟩, ⟨96494841260599951, 17⟩),
  (⟨24572424888972961, 10⟩, ⟨88068723517299941, 17⟩, ⟨0, 0⟩, ⟨24572424888972961, 10⟩, ⟨88068723517299941, 17⟩, ⟨0, 0⟩, ⟨24572424888972961, 10⟩, ⟨88068723517299941, 17⟩),
  (⟨24765456326846685, 10⟩, ⟨58564527106120268, 17⟩, ⟨0, 0⟩, ⟨24765456326846685, 10⟩, ⟨58564527106120268, 17⟩, ⟨0, 0⟩, ⟨24765456326846685, 10⟩, ⟨58564527106120268, 17⟩),
  (⟨24727604592639343, 10⟩, ⟨69658806964377029, 17⟩, ⟨0, 0⟩, ⟨24727604592639343, 10⟩, ⟨69658806964377029, 17⟩, ⟨0, 0⟩, ⟨24727604592639343, 10⟩, ⟨69658806964377029, 17⟩),
  (⟨24558520630593169, 10⟩, ⟨47736284365975934, 17⟩, ⟨0, 0⟩, ⟨24558520630593169, 10⟩, ⟨47736284365975934, 17⟩, ⟨0, 0⟩, ⟨24558520630593169, 10⟩, ⟨47736284365975934, 17⟩),
  (⟨24712962916751038, 10⟩, ⟨63295288082444712, 17⟩, ⟨0, 0⟩, ⟨24712962916751038, 10⟩, ⟨63295288082444712, 17⟩, ⟨0, 0⟩, ⟨24712962916751038, 10⟩, ⟨63295288082444712, 17⟩),
  (⟨24844901608174285, 10⟩, ⟨30242995380697502, 17⟩, ⟨0, 0⟩, ⟨24844901608174285, 10⟩, ⟨30242995380697502, 17⟩, ⟨0, 0⟩, ⟨24844901608174285, 10⟩, ⟨30242995380697502, 17⟩),
  (⟨24694432492032005, 10⟩, ⟨89497873449495091, 17⟩, ⟨0, 0⟩, ⟨24694432492032005, 10⟩, ⟨89497873449495091, 17⟩, ⟨0, 0⟩, ⟨24694432492032005, 10⟩, ⟨89497873449495091, 17⟩),
  (⟨24712445253606136, 10⟩, ⟨71575005711673700, 17⟩, ⟨0, 0⟩, ⟨24712445253606136, 10⟩, ⟨71575005711673700, 17⟩, ⟨0, 0⟩, ⟨24712445253606136, 10⟩, ⟨71575005711673700, 17⟩),
  (⟨24666780117666032, 10⟩, ⟨90489687593550916, 18⟩, ⟨0, 0⟩, ⟨24666780117666032, 10⟩, ⟨90489687593550916, 18⟩, ⟨0, 0⟩, ⟨24666780117666032, 10⟩, ⟨90489687593550916, 18⟩),
  (⟨24572075068260506, 10⟩, ⟨82757295384698182, 17⟩, ⟨0, 0⟩, ⟨24572075068260506, 10⟩, ⟨82757295384698182, 17⟩, ⟨0, 0⟩, ⟨24572075068260506, 10⟩, ⟨82757295384698182, 17⟩),
  (⟨24635069228535648, 10⟩, ⟨32359479865315199, 17⟩, ⟨0, 0⟩, ⟨24635069228535648, 10⟩, ⟨32359479865315199, 17⟩, ⟨0, 0⟩, ⟨24635069228535648, 10⟩, ⟨32359479865315199, 17⟩),
  (⟨24825075823774473, 10⟩, ⟨62921807650987294, 17⟩, ⟨0, 0⟩, ⟨24825075823774473, 10⟩, ⟨62921807650987294, 17⟩, ⟨0, 0⟩, ⟨24825075823774473, 10⟩, ⟨62921807650987294, 17⟩),
  (⟨24564341846752600, 10⟩, ⟨66047527302194653, 18⟩, ⟨0, 0⟩, ⟨24564341846752600, 10⟩, ⟨66047527302194653, 18⟩, ⟨0, 0⟩, ⟨24564341846752600, 10⟩, ⟨66047527302194653, 18⟩),
  (⟨24766527261539977, 10⟩, ⟨14752312014924218, 18⟩, ⟨0, 0⟩, ⟨24766527261539977, 10⟩, ⟨14752312014924218, 18⟩, ⟨0, 0⟩, ⟨24766527261539977, 10⟩, ⟨14752312014924218, 18⟩),
  (⟨24569042285885890, 10⟩, ⟨59874485467638106, 17⟩, ⟨0, 0⟩, ⟨24569042285885890, 10⟩, ⟨59874485467638106, 17⟩, ⟨0, 0⟩, ⟨24569042285885890, 10⟩, ⟨59874485467638106, 17⟩),
  (⟨24560483659835258, 10⟩, ⟨66057536837109243, 17⟩, ⟨0, 0⟩, ⟨24560483659835258, 10⟩, ⟨66057536837109243, 17⟩, ⟨0, 0⟩, ⟨24560483659835258, 10⟩, ⟨66057536837109243, 17⟩),
  (⟨24793698461577045, 10⟩, ⟨51489930791437843, 17⟩, ⟨0, 0⟩, ⟨24793698461577045, 10⟩, ⟨51489930791437843, 17⟩, ⟨0, 0⟩, ⟨24793698461577045, 10⟩, ⟨51489930791437843, 17⟩),
  (⟨24816950169289247, 10⟩, ⟨93187356095161034, 17⟩, ⟨0, 0⟩, ⟨24816950169289247, 10⟩, ⟨93187356095161034, 17⟩, ⟨0, 0⟩, ⟨24816950169289247, 10⟩, ⟨93187356095161034, 17⟩),
  (⟨24808505856118891, 10⟩, ⟨26931167853385496, 17⟩, ⟨0, 0⟩, ⟨24808505856118891, 10⟩, ⟨26931167853385496, 17⟩, ⟨0, 0⟩, ⟨24808505856118891, 10⟩, ⟨26931167853385496, 17⟩),
  (⟨24858294977727355, 10⟩, ⟨16808289473422278, 17⟩, ⟨0, 0⟩, ⟨24858294977727355, 10⟩, ⟨16808289473422278, 17⟩, ⟨0, 0⟩, ⟨24858294977727355, 10⟩, ⟨16808289473422278, 17⟩),
  (⟨24709093254541634, 10⟩, ⟨13049446356567473, 17⟩, ⟨0, 0⟩, ⟨24709093254541634, 10⟩, ⟨13049446356567473, 17⟩, ⟨0, 0⟩, ⟨24709093254541634, 10⟩, ⟨13049446356567473, 17⟩),
  (⟨24618993456938020, 10⟩, ⟨84157971808742416, 17⟩, ⟨0, 0⟩, ⟨24618993456938020, 10⟩, ⟨84157971808742416, 17⟩, ⟨0, 0⟩, ⟨24618993456938020, 10⟩, ⟨84157971808742416, 17⟩),
  (⟨24845140791459861, 10⟩, ⟨64196019795126247, 17⟩, ⟨0, 0⟩, ⟨24845140791459861, 10⟩, ⟨64196019795126247, 17⟩, ⟨0, 0⟩, ⟨24845140791459861, 10⟩, ⟨64196019795126247, 17⟩),
  (⟨24800827740303134, 10⟩, ⟨49573718979733383, 17⟩, ⟨0, 0⟩, ⟨24800827740303134, 10⟩, ⟨49573718979733383, 17⟩, ⟨0, 0⟩, ⟨24800827740303134, 10⟩, ⟨49573718979733383, 17⟩)]

/-- `C2T00B_DATA`. -/
def C2T00B_DATA : List (Dec × Dec × Dec × Dec × Dec × Dec × Dec × Dec) :=
  C2t_0 ++ C2t_1 ++ C2t_2 ++ C2t_3 ++ C2t_4 ++ C2t_5 ++ C2t_6 ++ C2t_7 ++ C2t_8 ++ C2t_9

end Verif.TestData
