import Verif.Model.Epv.Table

/-!
# `S2` of `crates/tofas/src/epv00_data.rs` (lines 2589-2623)

`row a i b j c k` is the row `[a*10^-i, b*10^-j, c*10^-k]`; digits as in the source.
-/

namespace Verif.Epv

/-- `S2[0]`. -/
def S2_0 : List Row := [
  row 160355163658700 26 160911449509100 26 374992035805400 27,
  row 155693588938400 26 156033078494600 26 273503722093900 27,
  row 118259441491500 26 118353547920200 26 0 0,
  row 115879458318000 26 115818306618200 26 0 0,
  row 959735894393200 27 103286802740700 26 0 0,
  row 651151657960500 27 654014284774100 27 0 0,
  row 741979274768800 27 730523649159600 27 0 0,
  row 395197265584800 27 (-558072505296800) 27 0 0,
  row 447822387704500 27 394612265101500 27 0 0]

/-- `S2[1]`. -/
def S2_1 : List Row := [
  row 440410941048100 14 283109699348100 14 323028555866800 14,
  row 481804087360300 15 519305821390600 14 615432268304600 14,
  row 993576273447200 15 570700344389000 14 0 0,
  row 335318096645000 14 178240040492800 14 0 0,
  row 556704535829800 14 403692545201100 14 0 0,
  row 563087242078800 14 405824105671700 14 0 0,
  row 215618858195700 14 617540194295700 15 0 0,
  row 198102254180500 14 0 0 0 0,
  row 0 0 410826527917100 15 0 0]

/-- `S2[2]`. -/
def S2_2 : List Row := [
  row 206185625110400 15 206185625110400 15 213299079778300 15,
  row 220412534446200 15 220412534446200 15 529690972111800 15,
  row 522577517443900 15 522577517443900 15 0 0,
  row 536804426779700 15 536804426779700 15 0 0,
  row 213299079778300 15 213299079778300 15 0 0,
  row 426598159556600 15 426598159556600 15 0 0,
  row 529690972111800 15 529690972111800 15 0 0,
  row 105938194422400 14 0 0 0 0,
  row 0 0 105938194422400 14 0 0]

/-- epv00_data.rs:2589-2623. -/
def S2 : Table := [S2_0, S2_1, S2_2]

end Verif.Epv
