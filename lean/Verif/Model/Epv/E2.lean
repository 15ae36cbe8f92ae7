import Verif.Model.Epv.Table

/-!
# `E2` of `crates/tofas/src/epv00_data.rs` (lines 1761-1783)

`row a i b j c k` is the row `[a*10^-i, b*10^-j, c*10^-k]`; digits as in the source.
-/

namespace Verif.Epv

/-- `E2[0]`. -/
def E2_0 : List Row := [
  row (-414381829791300) 25 506337587253200 25 972266611489100 25,
  row 217149769443500 25 217381578598000 25 (-349481917190900) 26,
  row 984539844251600 26 101023199992000 25 671303437607600 27,
  row 925683355268200 27 925974531763600 27 0 0,
  row 102204938411500 27 102220209581200 27 0 0]

/-- `E2[1]`. -/
def E2_1 : List Row := [
  row 0 0 0 0 515221958265800 14,
  row 439822562826400 14 282780583305300 14 0 0,
  row 207972083838400 15 463461237713300 14 644018875049500 15,
  row 419126469436100 14 262061207618900 14 0 0,
  row 538113319565800 14 380956232606600 14 0 0]

/-- `E2[2]`. -/
def E2_2 : List Row := [
  row 0 0 0 0 628307585044600 14,
  row 125661517008900 13 125661517008900 13 0 0,
  row 628307585044600 14 628307585044600 14 125661517008900 13,
  row 188492275513400 13 188492275513400 13 0 0,
  row 839968473185700 13 839968473185700 13 0 0]

/-- epv00_data.rs:1761-1783. -/
def E2 : Table := [E2_0, E2_1, E2_2]

end Verif.Epv
