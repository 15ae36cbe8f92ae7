import Verif.Lemmas.EquationOfTime

/-!
# Signs of the polynomials of the equation of time

With `t` the tangent of half the longitude each sum is a polynomial of degree six over `(1 + t ^ 2) ^ 3`; written in powers of the
distances to the ends of an interval, it has positive coefficients.
-/

namespace Verif

set_option maxHeartbeats 1000000

theorem eot_slow1 {t : ℝ} (h1 : (-181 / 200) ≤ t) (h2 : t ≤ (183 / 1000)) :
    0 < eotF (2 * t / (1 + t ^ 2)) ((1 - t ^ 2) / (1 + t ^ 2)) - 0.0031 := by
  have x0 : 0 ≤ t - (-181 / 200) := by linarith
  have y0 : 0 ≤ (183 / 1000) - t := by linarith
  have d : 0 < 1 + t ^ 2 := by positivity
  have key : eotF (2 * t / (1 + t ^ 2)) ((1 - t ^ 2) / (1 + t ^ 2)) - 0.0031 =
      (704894951405469779745901201267 / 265395377817455165440000000000000 * (t - (-181 / 200)) ^ 0 * ((183 / 1000) - t) ^ 6 + 329490583719021711646047358392957 / 663488444543637913600000000000000 * (t - (-181 / 200)) ^ 1 * ((183 / 1000) - t) ^ 5 + 1405701156033970488783146104793649 / 1326976889087275827200000000000000 * (t - (-181 / 200)) ^ 2 * ((183 / 1000) - t) ^ 4 + 1649157431355969344384493816160231 / 1658721111359094784000000000000000 * (t - (-181 / 200)) ^ 3 * ((183 / 1000) - t) ^ 3 + 16165004905304728103489613786787401 / 33174422227181895680000000000000000 * (t - (-181 / 200)) ^ 4 * ((183 / 1000) - t) ^ 2 + 37965152696869932483658258873370157 / 414680277839773696000000000000000000 * (t - (-181 / 200)) ^ 5 * ((183 / 1000) - t) ^ 1 + 632098865150964789536258743692683 / 4146802778397736960000000000000000000 * (t - (-181 / 200)) ^ 6 * ((183 / 1000) - t) ^ 0) / (1 + t ^ 2) ^ 3 := by
    unfold eotF
    field_simp
    ring
  rw [key]
  refine div_pos ?_ (by positivity)
  have s : 0 < (t - (-181 / 200)) + ((183 / 1000) - t) := by linarith
  generalize t - (-181 / 200) = u at *
  generalize (183 / 1000) - t = v at *
  rcases x0.lt_or_eq with h | h
  · positivity
  · subst h
    have : 0 < v := by linarith
    positivity

theorem eot_fast1 {t : ℝ} (h1 : (61 / 250) ≤ t) (h2 : t ≤ (1611 / 2000)) :
    0 < -eotF (2 * t / (1 + t ^ 2)) ((1 - t ^ 2) / (1 + t ^ 2)) - 0.0031 := by
  have x0 : 0 ≤ t - (61 / 250) := by linarith
  have y0 : 0 ≤ (1611 / 2000) - t := by linarith
  have d : 0 < 1 + t ^ 2 := by positivity
  have key : -eotF (2 * t / (1 + t ^ 2)) ((1 - t ^ 2) / (1 + t ^ 2)) - 0.0031 =
      (759309422129606740021838314946 / 38256798186913484363555908203125 * (t - (61 / 250)) ^ 0 * ((1611 / 2000) - t) ^ 6 + 176143719484280231513205041938869 / 76513596373826968727111816406250 * (t - (61 / 250)) ^ 1 * ((1611 / 2000) - t) ^ 5 + 2541621982262642054058947614790319 / 244843508396246299926757812500000 * (t - (61 / 250)) ^ 2 * ((1611 / 2000) - t) ^ 4 + 8964143449842778867504792923008923 / 489687016792492599853515625000000 * (t - (61 / 250)) ^ 3 * ((1611 / 2000) - t) ^ 3 + 232253923399808414226364081010148219 / 15669984537359763195312500000000000 * (t - (61 / 250)) ^ 4 * ((1611 / 2000) - t) ^ 2 + 1443766711009497612139882286681154669 / 313399690747195263906250000000000000 * (t - (61 / 250)) ^ 5 * ((1611 / 2000) - t) ^ 1 + 97953090183254668511282437862515373 / 5014395051955124222500000000000000000 * (t - (61 / 250)) ^ 6 * ((1611 / 2000) - t) ^ 0) / (1 + t ^ 2) ^ 3 := by
    unfold eotF
    field_simp
    ring
  rw [key]
  refine div_pos ?_ (by positivity)
  have s : 0 < (t - (61 / 250)) + ((1611 / 2000) - t) := by linarith
  generalize t - (61 / 250) = u at *
  generalize (1611 / 2000) - t = v at *
  rcases x0.lt_or_eq with h | h
  · positivity
  · subst h
    have : 0 < v := by linarith
    positivity

theorem eot_slow2 {t : ℝ} (h1 : (-27 / 25) ≤ t) (h2 : t ≤ (-197 / 1000)) :
    0 < eotF (-(2 * t / (1 + t ^ 2))) (-((1 - t ^ 2) / (1 + t ^ 2))) - 0.0031 := by
  have x0 : 0 ≤ t - (-27 / 25) := by linarith
  have y0 : 0 ≤ (-197 / 1000) - t := by linarith
  have d : 0 < 1 + t ^ 2 := by positivity
  have key : eotF (-(2 * t / (1 + t ^ 2))) (-((1 - t ^ 2) / (1 + t ^ 2))) - 0.0031 =
      (5425798879422987762198304 / 578594469112621788330078125 * (t - (-27 / 25)) ^ 0 * ((-197 / 1000) - t) ^ 6 + 2673912887725632052255888683 / 2892972345563108941650390625 * (t - (-27 / 25)) ^ 1 * ((-197 / 1000) - t) ^ 5 + 122611870045903688206423563813 / 46287557529009743066406250000 * (t - (-27 / 25)) ^ 2 * ((-197 / 1000) - t) ^ 4 + 672356591297878724838431306603 / 231437787645048715332031250000 * (t - (-27 / 25)) ^ 3 * ((-197 / 1000) - t) ^ 3 + 112176096795066040355637778295973 / 74060092046415588906250000000000 * (t - (-27 / 25)) ^ 4 * ((-197 / 1000) - t) ^ 2 + 4718851063801900999643591109563631 / 14812018409283117781250000000000000 * (t - (-27 / 25)) ^ 5 * ((-197 / 1000) - t) ^ 1 + 2151759124305110444596459197247597 / 1184961472742649422500000000000000000 * (t - (-27 / 25)) ^ 6 * ((-197 / 1000) - t) ^ 0) / (1 + t ^ 2) ^ 3 := by
    unfold eotF
    field_simp
    ring
  rw [key]
  refine div_pos ?_ (by positivity)
  have s : 0 < (t - (-27 / 25)) + ((-197 / 1000) - t) := by linarith
  generalize t - (-27 / 25) = u at *
  generalize (-197 / 1000) - t = v at *
  rcases x0.lt_or_eq with h | h
  · positivity
  · subst h
    have : 0 < v := by linarith
    positivity

theorem eot_fast2 {t : ℝ} (h1 : (-151 / 1000) ≤ t) (h2 : t ≤ (259 / 250)) :
    0 < -eotF (-(2 * t / (1 + t ^ 2))) (-((1 - t ^ 2) / (1 + t ^ 2))) - 0.0031 := by
  have x0 : 0 ≤ t - (-151 / 1000) := by linarith
  have y0 : 0 ≤ (259 / 250) - t := by linarith
  have d : 0 < 1 + t ^ 2 := by positivity
  have key : -eotF (-(2 * t / (1 + t ^ 2))) (-((1 - t ^ 2) / (1 + t ^ 2))) - 0.0031 =
      (421899307285065745384624636263307 / 6992690754822793022500000000000000000 * (t - (-151 / 1000)) ^ 0 * ((259 / 250) - t) ^ 6 + 64827539509388809355749151412550311 / 874086344352849127812500000000000000 * (t - (-151 / 1000)) ^ 1 * ((259 / 250) - t) ^ 5 + 32804701985547631570651485542783301 / 87408634435284912781250000000000000 * (t - (-151 / 1000)) ^ 2 * ((259 / 250) - t) ^ 4 + 4240946847251799256367889996924297 / 5463039652205307048828125000000000 * (t - (-151 / 1000)) ^ 3 * ((259 / 250) - t) ^ 3 + 4692471241845935470572585415863081 / 5463039652205307048828125000000000 * (t - (-151 / 1000)) ^ 4 * ((259 / 250) - t) ^ 2 + 1427124443405333540087506770857871 / 3414399782628316905517578125000000 * (t - (-151 / 1000)) ^ 5 * ((259 / 250) - t) ^ 1 + 1948950778151720599699387807087 / 1707199891314158452758789062500000 * (t - (-151 / 1000)) ^ 6 * ((259 / 250) - t) ^ 0) / (1 + t ^ 2) ^ 3 := by
    unfold eotF
    field_simp
    ring
  rw [key]
  refine div_pos ?_ (by positivity)
  have s : 0 < (t - (-151 / 1000)) + ((259 / 250) - t) := by linarith
  generalize t - (-151 / 1000) = u at *
  generalize (259 / 250) - t = v at *
  rcases x0.lt_or_eq with h | h
  · positivity
  · subst h
    have : 0 < v := by linarith
    positivity

theorem eot_low_0 {t : ℝ} (h1 : -1 ≤ t) (h2 : t ≤ 0) :
    0 < 0.0765 * eotG (2 * t / (1 + t ^ 2)) ((1 - t ^ 2) / (1 + t ^ 2)) + eotF (2 * t / (1 + t ^ 2)) ((1 - t ^ 2) / (1 + t ^ 2)) - 0.0043 := by
  have x0 : 0 ≤ t - -1 := by linarith
  have y0 : 0 ≤ 0 - t := by linarith
  have d : 0 < 1 + t ^ 2 := by positivity
  have key : 0.0765 * eotG (2 * t / (1 + t ^ 2)) ((1 - t ^ 2) / (1 + t ^ 2)) + eotF (2 * t / (1 + t ^ 2)) ((1 - t ^ 2) / (1 + t ^ 2)) - 0.0043 =
      (572617329847269961571 / 1250000000000000000000 * (t - -1) ^ 0 * (0 - t) ^ 6 + 570440131157274040353 / 250000000000000000000 * (t - -1) ^ 1 * (0 - t) ^ 5 + 1104603880419099226497 / 250000000000000000000 * (t - -1) ^ 2 * (0 - t) ^ 4 + 5488462725958161477959 / 1250000000000000000000 * (t - -1) ^ 3 * (0 - t) ^ 3 + 6240539310311873870907 / 2500000000000000000000 * (t - -1) ^ 4 * (0 - t) ^ 2 + 1898469295576942685571 / 2500000000000000000000 * (t - -1) ^ 5 * (0 - t) ^ 1 + 254491642434299993 / 2500000000000000000 * (t - -1) ^ 6 * (0 - t) ^ 0) / (1 + t ^ 2) ^ 3 := by
    unfold eotF eotG
    field_simp
    ring
  rw [key]
  refine div_pos ?_ (by positivity)
  have s : 0 < (t - -1) + (0 - t) := by linarith
  generalize t - -1 = u at *
  generalize 0 - t = v at *
  rcases x0.lt_or_eq with h | h
  · positivity
  · subst h
    have : 0 < v := by linarith
    positivity

theorem eot_low_1 {t : ℝ} (h1 : 0 ≤ t) (h2 : t ≤ 1) :
    0 < 0.0765 * eotG (2 * t / (1 + t ^ 2)) ((1 - t ^ 2) / (1 + t ^ 2)) + eotF (2 * t / (1 + t ^ 2)) ((1 - t ^ 2) / (1 + t ^ 2)) - 0.0043 := by
  have x0 : 0 ≤ t - 0 := by linarith
  have y0 : 0 ≤ 1 - t := by linarith
  have d : 0 < 1 + t ^ 2 := by positivity
  have key : 0.0765 * eotG (2 * t / (1 + t ^ 2)) ((1 - t ^ 2) / (1 + t ^ 2)) + eotF (2 * t / (1 + t ^ 2)) ((1 - t ^ 2) / (1 + t ^ 2)) - 0.0043 =
      (254491642434299993 / 2500000000000000000 * (t - 0) ^ 0 * (1 - t) ^ 6 + 1155430413634657230429 / 2500000000000000000000 * (t - 0) ^ 1 * (1 - t) ^ 5 + 2525344900600446595197 / 2500000000000000000000 * (t - 0) ^ 2 * (1 - t) ^ 4 + 1863639998494479734249 / 1250000000000000000000 * (t - 0) ^ 3 * (1 - t) ^ 3 + 83157601565092218111 / 50000000000000000000 * (t - 0) ^ 4 * (1 - t) ^ 2 + 1719379056702750432339 / 1250000000000000000000 * (t - 0) ^ 5 * (1 - t) ^ 1 + 745130130152730038429 / 1250000000000000000000 * (t - 0) ^ 6 * (1 - t) ^ 0) / (1 + t ^ 2) ^ 3 := by
    unfold eotF eotG
    field_simp
    ring
  rw [key]
  refine div_pos ?_ (by positivity)
  have s : 0 < (t - 0) + (1 - t) := by linarith
  generalize t - 0 = u at *
  generalize 1 - t = v at *
  rcases x0.lt_or_eq with h | h
  · positivity
  · subst h
    have : 0 < v := by linarith
    positivity

theorem eot_low {t : ℝ} (h1 : -1 ≤ t) (h2 : t ≤ 1) :
    0 < 0.0765 * eotG (2 * t / (1 + t ^ 2)) ((1 - t ^ 2) / (1 + t ^ 2)) + eotF (2 * t / (1 + t ^ 2)) ((1 - t ^ 2) / (1 + t ^ 2)) - 0.0043 := by
  rcases le_total t 0 with h | h
  · exact eot_low_0 (by linarith) h
  exact eot_low_1 (by linarith) h2

theorem eot_high_0 {t : ℝ} (h1 : -1 ≤ t) (h2 : t ≤ (-1 / 2)) :
    0 < 0.0677 * eotG (2 * t / (1 + t ^ 2)) ((1 - t ^ 2) / (1 + t ^ 2)) - eotF (2 * t / (1 + t ^ 2)) ((1 - t ^ 2) / (1 + t ^ 2)) - 0.0043 := by
  have x0 : 0 ≤ t - -1 := by linarith
  have y0 : 0 ≤ (-1 / 2) - t := by linarith
  have d : 0 < 1 + t ^ 2 := by positivity
  have key : 0.0677 * eotG (2 * t / (1 + t ^ 2)) ((1 - t ^ 2) / (1 + t ^ 2)) - eotF (2 * t / (1 + t ^ 2)) ((1 - t ^ 2) / (1 + t ^ 2)) - 0.0043 =
      (3214230834500769699239 / 97656250000000000000 * (t - -1) ^ 0 * ((-1 / 2) - t) ^ 6 + 23227133422570589703819 / 195312500000000000000 * (t - -1) ^ 1 * ((-1 / 2) - t) ^ 5 + 545924336094029703147 / 3125000000000000000 * (t - -1) ^ 2 * ((-1 / 2) - t) ^ 4 + 103074045740425128657621 / 781250000000000000000 * (t - -1) ^ 3 * ((-1 / 2) - t) ^ 3 + 166030640234248683001299 / 3125000000000000000000 * (t - -1) ^ 4 * ((-1 / 2) - t) ^ 2 + 66428949789611553135789 / 6250000000000000000000 * (t - -1) ^ 5 * ((-1 / 2) - t) ^ 1 + 5253460132544045353571 / 6250000000000000000000 * (t - -1) ^ 6 * ((-1 / 2) - t) ^ 0) / (1 + t ^ 2) ^ 3 := by
    unfold eotF eotG
    field_simp
    ring
  rw [key]
  refine div_pos ?_ (by positivity)
  have s : 0 < (t - -1) + ((-1 / 2) - t) := by linarith
  generalize t - -1 = u at *
  generalize (-1 / 2) - t = v at *
  rcases x0.lt_or_eq with h | h
  · positivity
  · subst h
    have : 0 < v := by linarith
    positivity

theorem eot_high_1 {t : ℝ} (h1 : (-1 / 2) ≤ t) (h2 : t ≤ (-1 / 4)) :
    0 < 0.0677 * eotG (2 * t / (1 + t ^ 2)) ((1 - t ^ 2) / (1 + t ^ 2)) - eotF (2 * t / (1 + t ^ 2)) ((1 - t ^ 2) / (1 + t ^ 2)) - 0.0043 := by
  have x0 : 0 ≤ t - (-1 / 2) := by linarith
  have y0 : 0 ≤ (-1 / 4) - t := by linarith
  have d : 0 < 1 + t ^ 2 := by positivity
  have key : 0.0677 * eotG (2 * t / (1 + t ^ 2)) ((1 - t ^ 2) / (1 + t ^ 2)) - eotF (2 * t / (1 + t ^ 2)) ((1 - t ^ 2) / (1 + t ^ 2)) - 0.0043 =
      (5253460132544045353571 / 97656250000000000000 * (t - (-1 / 2)) ^ 0 * ((-1 / 4) - t) ^ 6 + 28133332596181263228489 / 195312500000000000000 * (t - (-1 / 2)) ^ 1 * ((-1 / 4) - t) ^ 5 + 5605518939721273962231 / 48828125000000000000 * (t - (-1 / 2)) ^ 2 * ((-1 / 4) - t) ^ 4 + 9202995103656035738769 / 390625000000000000000 * (t - (-1 / 2)) ^ 3 * ((-1 / 4) - t) ^ 3 + 9792828404440733002263 / 312500000000000000000 * (t - (-1 / 2)) ^ 4 * ((-1 / 4) - t) ^ 2 + 162268382728524410988213 / 3125000000000000000000 * (t - (-1 / 2)) ^ 5 * ((-1 / 4) - t) ^ 1 + 61525745149633906375753 / 3125000000000000000000 * (t - (-1 / 2)) ^ 6 * ((-1 / 4) - t) ^ 0) / (1 + t ^ 2) ^ 3 := by
    unfold eotF eotG
    field_simp
    ring
  rw [key]
  refine div_pos ?_ (by positivity)
  have s : 0 < (t - (-1 / 2)) + ((-1 / 4) - t) := by linarith
  generalize t - (-1 / 2) = u at *
  generalize (-1 / 4) - t = v at *
  rcases x0.lt_or_eq with h | h
  · positivity
  · subst h
    have : 0 < v := by linarith
    positivity

theorem eot_high_2 {t : ℝ} (h1 : (-1 / 4) ≤ t) (h2 : t ≤ 0) :
    0 < 0.0677 * eotG (2 * t / (1 + t ^ 2)) ((1 - t ^ 2) / (1 + t ^ 2)) - eotF (2 * t / (1 + t ^ 2)) ((1 - t ^ 2) / (1 + t ^ 2)) - 0.0043 := by
  have x0 : 0 ≤ t - (-1 / 4) := by linarith
  have y0 : 0 ≤ 0 - t := by linarith
  have d : 0 < 1 + t ^ 2 := by positivity
  have key : 0.0677 * eotG (2 * t / (1 + t ^ 2)) ((1 - t ^ 2) / (1 + t ^ 2)) - eotF (2 * t / (1 + t ^ 2)) ((1 - t ^ 2) / (1 + t ^ 2)) - 0.0043 =
      (61525745149633906375753 / 3125000000000000000000 * (t - (-1 / 4)) ^ 0 * (0 - t) ^ 6 + 576040559067082465520823 / 3125000000000000000000 * (t - (-1 / 4)) ^ 1 * (0 - t) ^ 5 + 27084864571714970033571 / 39062500000000000000 * (t - (-1 / 4)) ^ 2 * (0 - t) ^ 4 + 3967955299146932553577 / 3051757812500000000 * (t - (-1 / 4)) ^ 3 * (0 - t) ^ 3 + 3957027814318976943153 / 3051757812500000000 * (t - (-1 / 4)) ^ 4 * (0 - t) ^ 2 + 8072537253701399209239 / 12207031250000000000 * (t - (-1 / 4)) ^ 5 * (0 - t) ^ 1 + 83159615248549807 / 610351562500000 * (t - (-1 / 4)) ^ 6 * (0 - t) ^ 0) / (1 + t ^ 2) ^ 3 := by
    unfold eotF eotG
    field_simp
    ring
  rw [key]
  refine div_pos ?_ (by positivity)
  have s : 0 < (t - (-1 / 4)) + (0 - t) := by linarith
  generalize t - (-1 / 4) = u at *
  generalize 0 - t = v at *
  rcases x0.lt_or_eq with h | h
  · positivity
  · subst h
    have : 0 < v := by linarith
    positivity

theorem eot_high_3 {t : ℝ} (h1 : 0 ≤ t) (h2 : t ≤ 1) :
    0 < 0.0677 * eotG (2 * t / (1 + t ^ 2)) ((1 - t ^ 2) / (1 + t ^ 2)) - eotF (2 * t / (1 + t ^ 2)) ((1 - t ^ 2) / (1 + t ^ 2)) - 0.0043 := by
  have x0 : 0 ≤ t - 0 := by linarith
  have y0 : 0 ≤ 1 - t := by linarith
  have d : 0 < 1 + t ^ 2 := by positivity
  have key : 0.0677 * eotG (2 * t / (1 + t ^ 2)) ((1 - t ^ 2) / (1 + t ^ 2)) - eotF (2 * t / (1 + t ^ 2)) ((1 - t ^ 2) / (1 + t ^ 2)) - 0.0043 =
      (83159615248549807 / 2500000000000000000 * (t - 0) ^ 0 * (1 - t) ^ 6 + 4401405033581071840761 / 12500000000000000000000 * (t - 0) ^ 1 * (1 - t) ^ 5 + 17423292277599538984473 / 12500000000000000000000 * (t - 0) ^ 2 * (1 - t) ^ 4 + 16830319309095861785141 / 6250000000000000000000 * (t - 0) ^ 3 * (1 - t) ^ 3 + 735247125356240087619 / 250000000000000000000 * (t - 0) ^ 4 * (1 - t) ^ 2 + 10252222828561353312951 / 6250000000000000000000 * (t - 0) ^ 5 * (1 - t) ^ 1 + 2567122305499230300761 / 6250000000000000000000 * (t - 0) ^ 6 * (1 - t) ^ 0) / (1 + t ^ 2) ^ 3 := by
    unfold eotF eotG
    field_simp
    ring
  rw [key]
  refine div_pos ?_ (by positivity)
  have s : 0 < (t - 0) + (1 - t) := by linarith
  generalize t - 0 = u at *
  generalize 1 - t = v at *
  rcases x0.lt_or_eq with h | h
  · positivity
  · subst h
    have : 0 < v := by linarith
    positivity

theorem eot_high {t : ℝ} (h1 : -1 ≤ t) (h2 : t ≤ 1) :
    0 < 0.0677 * eotG (2 * t / (1 + t ^ 2)) ((1 - t ^ 2) / (1 + t ^ 2)) - eotF (2 * t / (1 + t ^ 2)) ((1 - t ^ 2) / (1 + t ^ 2)) - 0.0043 := by
  rcases le_total t (-1 / 2) with h | h
  · exact eot_high_0 (by linarith) h
  rcases le_total t (-1 / 4) with h | h
  · exact eot_high_1 (by linarith) h
  rcases le_total t 0 with h | h
  · exact eot_high_2 (by linarith) h
  exact eot_high_3 (by linarith) h2

theorem eot_low'_0 {t : ℝ} (h1 : -1 ≤ t) (h2 : t ≤ 0) :
    0 < 0.0765 * eotG (-(2 * t / (1 + t ^ 2))) (-((1 - t ^ 2) / (1 + t ^ 2))) + eotF (-(2 * t / (1 + t ^ 2))) (-((1 - t ^ 2) / (1 + t ^ 2))) - 0.0043 := by
  have x0 : 0 ≤ t - -1 := by linarith
  have y0 : 0 ≤ 0 - t := by linarith
  have d : 0 < 1 + t ^ 2 := by positivity
  have key : 0.0765 * eotG (-(2 * t / (1 + t ^ 2))) (-((1 - t ^ 2) / (1 + t ^ 2))) + eotF (-(2 * t / (1 + t ^ 2))) (-((1 - t ^ 2) / (1 + t ^ 2))) - 0.0043 =
      (745130130152730038429 / 1250000000000000000000 * (t - -1) ^ 0 * (0 - t) ^ 6 + 550280344842725959647 / 250000000000000000000 * (t - -1) ^ 1 * (0 - t) ^ 5 + 931799341580900773503 / 250000000000000000000 * (t - -1) ^ 2 * (0 - t) ^ 4 + 4160932194041838522041 / 1250000000000000000000 * (t - -1) ^ 3 * (0 - t) ^ 3 + 4257108149688126129093 / 2500000000000000000000 * (t - -1) ^ 4 * (0 - t) ^ 2 + 1092710704423057314429 / 2500000000000000000000 * (t - -1) ^ 5 * (0 - t) ^ 1 + 106508357565700007 / 2500000000000000000 * (t - -1) ^ 6 * (0 - t) ^ 0) / (1 + t ^ 2) ^ 3 := by
    unfold eotF eotG
    field_simp
    ring
  rw [key]
  refine div_pos ?_ (by positivity)
  have s : 0 < (t - -1) + (0 - t) := by linarith
  generalize t - -1 = u at *
  generalize 0 - t = v at *
  rcases x0.lt_or_eq with h | h
  · positivity
  · subst h
    have : 0 < v := by linarith
    positivity

theorem eot_low'_1 {t : ℝ} (h1 : 0 ≤ t) (h2 : t ≤ (1 / 4)) :
    0 < 0.0765 * eotG (-(2 * t / (1 + t ^ 2))) (-((1 - t ^ 2) / (1 + t ^ 2))) + eotF (-(2 * t / (1 + t ^ 2))) (-((1 - t ^ 2) / (1 + t ^ 2))) - 0.0043 := by
  have x0 : 0 ≤ t - 0 := by linarith
  have y0 : 0 ≤ (1 / 4) - t := by linarith
  have d : 0 < 1 + t ^ 2 := by positivity
  have key : 0.0765 * eotG (-(2 * t / (1 + t ^ 2))) (-((1 - t ^ 2) / (1 + t ^ 2))) + eotF (-(2 * t / (1 + t ^ 2))) (-((1 - t ^ 2) / (1 + t ^ 2))) - 0.0043 =
      (106508357565700007 / 610351562500000 * (t - 0) ^ 0 * ((1 / 4) - t) ^ 6 + 2102540022547942895571 / 2441406250000000000 * (t - 0) ^ 1 * ((1 / 4) - t) ^ 5 + 2109996828281149486671 / 1220703125000000000 * (t - 0) ^ 2 * ((1 / 4) - t) ^ 4 + 1092398693971320850477 / 610351562500000000 * (t - 0) ^ 3 * ((1 / 4) - t) ^ 3 + 311367443394777388053 / 312500000000000000 * (t - 0) ^ 4 * ((1 / 4) - t) ^ 2 + 34880425896454225530711 / 125000000000000000000 * (t - 0) ^ 5 * ((1 / 4) - t) ^ 1 + 19214439775005514356877 / 625000000000000000000 * (t - 0) ^ 6 * ((1 / 4) - t) ^ 0) / (1 + t ^ 2) ^ 3 := by
    unfold eotF eotG
    field_simp
    ring
  rw [key]
  refine div_pos ?_ (by positivity)
  have s : 0 < (t - 0) + ((1 / 4) - t) := by linarith
  generalize t - 0 = u at *
  generalize (1 / 4) - t = v at *
  rcases x0.lt_or_eq with h | h
  · positivity
  · subst h
    have : 0 < v := by linarith
    positivity

theorem eot_low'_2 {t : ℝ} (h1 : (1 / 4) ≤ t) (h2 : t ≤ (3 / 8)) :
    0 < 0.0765 * eotG (-(2 * t / (1 + t ^ 2))) (-((1 - t ^ 2) / (1 + t ^ 2))) + eotF (-(2 * t / (1 + t ^ 2))) (-((1 - t ^ 2) / (1 + t ^ 2))) - 0.0043 := by
  have x0 : 0 ≤ t - (1 / 4) := by linarith
  have y0 : 0 ≤ (3 / 8) - t := by linarith
  have d : 0 < 1 + t ^ 2 := by positivity
  have key : 0.0765 * eotG (-(2 * t / (1 + t ^ 2))) (-((1 - t ^ 2) / (1 + t ^ 2))) + eotF (-(2 * t / (1 + t ^ 2))) (-((1 - t ^ 2) / (1 + t ^ 2))) - 0.0043 =
      (19214439775005514356877 / 9765625000000000000 * (t - (1 / 4)) ^ 0 * ((3 / 8) - t) ^ 6 + 171457786467828130770231 / 19531250000000000000 * (t - (1 / 4)) ^ 1 * ((3 / 8) - t) ^ 5 + 60065231418123229948107 / 3906250000000000000 * (t - (1 / 4)) ^ 2 * ((3 / 8) - t) ^ 4 + 516904101973300513138591 / 39062500000000000000 * (t - (1 / 4)) ^ 3 * ((3 / 8) - t) ^ 3 + 35897010619788358641969 / 6250000000000000000 * (t - (1 / 4)) ^ 4 * ((3 / 8) - t) ^ 2 + 378179444698488019883931 / 312500000000000000000 * (t - (1 / 4)) ^ 5 * ((3 / 8) - t) ^ 1 + 20918769092996858724203 / 156250000000000000000 * (t - (1 / 4)) ^ 6 * ((3 / 8) - t) ^ 0) / (1 + t ^ 2) ^ 3 := by
    unfold eotF eotG
    field_simp
    ring
  rw [key]
  refine div_pos ?_ (by positivity)
  have s : 0 < (t - (1 / 4)) + ((3 / 8) - t) := by linarith
  generalize t - (1 / 4) = u at *
  generalize (3 / 8) - t = v at *
  rcases x0.lt_or_eq with h | h
  · positivity
  · subst h
    have : 0 < v := by linarith
    positivity

theorem eot_low'_3 {t : ℝ} (h1 : (3 / 8) ≤ t) (h2 : t ≤ (1 / 2)) :
    0 < 0.0765 * eotG (-(2 * t / (1 + t ^ 2))) (-((1 - t ^ 2) / (1 + t ^ 2))) + eotF (-(2 * t / (1 + t ^ 2))) (-((1 - t ^ 2) / (1 + t ^ 2))) - 0.0043 := by
  have x0 : 0 ≤ t - (3 / 8) := by linarith
  have y0 : 0 ≤ (1 / 2) - t := by linarith
  have d : 0 < 1 + t ^ 2 := by positivity
  have key : 0.0765 * eotG (-(2 * t / (1 + t ^ 2))) (-((1 - t ^ 2) / (1 + t ^ 2))) + eotF (-(2 * t / (1 + t ^ 2))) (-((1 - t ^ 2) / (1 + t ^ 2))) - 0.0043 =
      (20918769092996858724203 / 156250000000000000000 * (t - (3 / 8)) ^ 0 * ((1 / 2) - t) ^ 6 + 123871013533436589496941 / 312500000000000000000 * (t - (3 / 8)) ^ 1 * ((1 / 2) - t) ^ 5 + 1046616750328321560327 / 625000000000000000 * (t - (3 / 8)) ^ 2 * ((1 / 2) - t) ^ 4 + 55949992310887917127081 / 9765625000000000000 * (t - (3 / 8)) ^ 3 * ((1 / 2) - t) ^ 3 + 22319437119038396347359 / 2441406250000000000 * (t - (3 / 8)) ^ 4 * ((1 / 2) - t) ^ 2 + 1615956584664422043981 / 244140625000000000 * (t - (3 / 8)) ^ 5 * ((1 / 2) - t) ^ 1 + 109510379437606486579 / 61035156250000000 * (t - (3 / 8)) ^ 6 * ((1 / 2) - t) ^ 0) / (1 + t ^ 2) ^ 3 := by
    unfold eotF eotG
    field_simp
    ring
  rw [key]
  refine div_pos ?_ (by positivity)
  have s : 0 < (t - (3 / 8)) + ((1 / 2) - t) := by linarith
  generalize t - (3 / 8) = u at *
  generalize (1 / 2) - t = v at *
  rcases x0.lt_or_eq with h | h
  · positivity
  · subst h
    have : 0 < v := by linarith
    positivity

theorem eot_low'_4 {t : ℝ} (h1 : (1 / 2) ≤ t) (h2 : t ≤ 1) :
    0 < 0.0765 * eotG (-(2 * t / (1 + t ^ 2))) (-((1 - t ^ 2) / (1 + t ^ 2))) + eotF (-(2 * t / (1 + t ^ 2))) (-((1 - t ^ 2) / (1 + t ^ 2))) - 0.0043 := by
  have x0 : 0 ≤ t - (1 / 2) := by linarith
  have y0 : 0 ≤ 1 - t := by linarith
  have d : 0 < 1 + t ^ 2 := by positivity
  have key : 0.0765 * eotG (-(2 * t / (1 + t ^ 2))) (-((1 - t ^ 2) / (1 + t ^ 2))) + eotF (-(2 * t / (1 + t ^ 2))) (-((1 - t ^ 2) / (1 + t ^ 2))) - 0.0043 =
      (109510379437606486579 / 250000000000000000000 * (t - (1 / 2)) ^ 0 * (1 - t) ^ 6 + 1669354798463772553389 / 250000000000000000000 * (t - (1 / 2)) ^ 1 * (1 - t) ^ 5 + 23988131300268099766359 / 625000000000000000000 * (t - (1 / 2)) ^ 2 * (1 - t) ^ 4 + 16226439034914193362681 / 156250000000000000000 * (t - (1 / 2)) ^ 3 * (1 - t) ^ 3 + 2271610527013598361819 / 15625000000000000000 * (t - (1 / 2)) ^ 4 * (1 - t) ^ 2 + 4019207302380869337087 / 39062500000000000000 * (t - (1 / 2)) ^ 5 * (1 - t) ^ 1 + 572617329847269961571 / 19531250000000000000 * (t - (1 / 2)) ^ 6 * (1 - t) ^ 0) / (1 + t ^ 2) ^ 3 := by
    unfold eotF eotG
    field_simp
    ring
  rw [key]
  refine div_pos ?_ (by positivity)
  have s : 0 < (t - (1 / 2)) + (1 - t) := by linarith
  generalize t - (1 / 2) = u at *
  generalize 1 - t = v at *
  rcases x0.lt_or_eq with h | h
  · positivity
  · subst h
    have : 0 < v := by linarith
    positivity

theorem eot_low' {t : ℝ} (h1 : -1 ≤ t) (h2 : t ≤ 1) :
    0 < 0.0765 * eotG (-(2 * t / (1 + t ^ 2))) (-((1 - t ^ 2) / (1 + t ^ 2))) + eotF (-(2 * t / (1 + t ^ 2))) (-((1 - t ^ 2) / (1 + t ^ 2))) - 0.0043 := by
  rcases le_total t 0 with h | h
  · exact eot_low'_0 (by linarith) h
  rcases le_total t (1 / 4) with h | h
  · exact eot_low'_1 (by linarith) h
  rcases le_total t (3 / 8) with h | h
  · exact eot_low'_2 (by linarith) h
  rcases le_total t (1 / 2) with h | h
  · exact eot_low'_3 (by linarith) h
  exact eot_low'_4 (by linarith) h2

theorem eot_high'_0 {t : ℝ} (h1 : -1 ≤ t) (h2 : t ≤ 0) :
    0 < 0.0677 * eotG (-(2 * t / (1 + t ^ 2))) (-((1 - t ^ 2) / (1 + t ^ 2))) - eotF (-(2 * t / (1 + t ^ 2))) (-((1 - t ^ 2) / (1 + t ^ 2))) - 0.0043 := by
  have x0 : 0 ≤ t - -1 := by linarith
  have y0 : 0 ≤ 0 - t := by linarith
  have d : 0 < 1 + t ^ 2 := by positivity
  have key : 0.0677 * eotG (-(2 * t / (1 + t ^ 2))) (-((1 - t ^ 2) / (1 + t ^ 2))) - eotF (-(2 * t / (1 + t ^ 2))) (-((1 - t ^ 2) / (1 + t ^ 2))) - 0.0043 =
      (2567122305499230300761 / 6250000000000000000000 * (t - -1) ^ 0 * (0 - t) ^ 6 + 1030102200886805698323 / 1250000000000000000000 * (t - -1) ^ 1 * (0 - t) ^ 5 + 1125379714717538027427 / 1250000000000000000000 * (t - -1) ^ 2 * (0 - t) ^ 4 + 5514611050899219862469 / 6250000000000000000000 * (t - -1) ^ 3 * (0 - t) ^ 3 + 8984726623646237323137 / 12500000000000000000000 * (t - -1) ^ 4 * (0 - t) ^ 2 + 4795928118668083420761 / 12500000000000000000000 * (t - -1) ^ 5 * (0 - t) ^ 1 + 233840384751450193 / 2500000000000000000 * (t - -1) ^ 6 * (0 - t) ^ 0) / (1 + t ^ 2) ^ 3 := by
    unfold eotF eotG
    field_simp
    ring
  rw [key]
  refine div_pos ?_ (by positivity)
  have s : 0 < (t - -1) + (0 - t) := by linarith
  generalize t - -1 = u at *
  generalize 0 - t = v at *
  rcases x0.lt_or_eq with h | h
  · positivity
  · subst h
    have : 0 < v := by linarith
    positivity

theorem eot_high'_1 {t : ℝ} (h1 : 0 ≤ t) (h2 : t ≤ 1) :
    0 < 0.0677 * eotG (-(2 * t / (1 + t ^ 2))) (-((1 - t ^ 2) / (1 + t ^ 2))) - eotF (-(2 * t / (1 + t ^ 2))) (-((1 - t ^ 2) / (1 + t ^ 2))) - 0.0043 := by
  have x0 : 0 ≤ t - 0 := by linarith
  have y0 : 0 ≤ 1 - t := by linarith
  have d : 0 < 1 + t ^ 2 := by positivity
  have key : 0.0677 * eotG (-(2 * t / (1 + t ^ 2))) (-((1 - t ^ 2) / (1 + t ^ 2))) - eotF (-(2 * t / (1 + t ^ 2))) (-((1 - t ^ 2) / (1 + t ^ 2))) - 0.0043 =
      (233840384751450193 / 2500000000000000000 * (t - 0) ^ 0 * (1 - t) ^ 6 + 9234494966418928159239 / 12500000000000000000000 * (t - 0) ^ 1 * (1 - t) ^ 5 + 31177560862400461015527 / 12500000000000000000000 * (t - 0) ^ 2 * (1 - t) ^ 4 + 28041886970904138214859 / 6250000000000000000000 * (t - 0) ^ 3 * (1 - t) ^ 3 + 1152922314243759912381 / 250000000000000000000 * (t - 0) ^ 4 * (1 - t) ^ 2 + 15343636591438646687049 / 6250000000000000000000 * (t - 0) ^ 5 * (1 - t) ^ 1 + 3214230834500769699239 / 6250000000000000000000 * (t - 0) ^ 6 * (1 - t) ^ 0) / (1 + t ^ 2) ^ 3 := by
    unfold eotF eotG
    field_simp
    ring
  rw [key]
  refine div_pos ?_ (by positivity)
  have s : 0 < (t - 0) + (1 - t) := by linarith
  generalize t - 0 = u at *
  generalize 1 - t = v at *
  rcases x0.lt_or_eq with h | h
  · positivity
  · subst h
    have : 0 < v := by linarith
    positivity

theorem eot_high' {t : ℝ} (h1 : -1 ≤ t) (h2 : t ≤ 1) :
    0 < 0.0677 * eotG (-(2 * t / (1 + t ^ 2))) (-((1 - t ^ 2) / (1 + t ^ 2))) - eotF (-(2 * t / (1 + t ^ 2))) (-((1 - t ^ 2) / (1 + t ^ 2))) - 0.0043 := by
  rcases le_total t 0 with h | h
  · exact eot_high'_0 (by linarith) h
  exact eot_high'_1 (by linarith) h2

end Verif
