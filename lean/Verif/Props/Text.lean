import Verif.Lemmas.Numeral
import Verif.Props.Display
import Verif.Props.Geodetic360
import Verif.Props.GeodeticAccuracy

/-!
# C73, C74: printed positions, dates and times read back
-/

namespace Verif
open Arith F64 Spec

theorem NumChar.not_mem {l : List Char} (h : ∀ c ∈ l, NumChar c) : ',' ∉ l ∧ ':' ∉ l ∧ '\n' ∉ l ∧ '°' ∉ l :=
  ⟨fun m => (h _ m).ne.1 rfl, fun m => (h _ m).ne.2.1 rfl, fun m => (h _ m).ne.2.2.1 rfl, fun m => (h _ m).ne.2.2.2.2 rfl⟩

/-- The first character is the sign. -/
theorem fmtZero_sign (w prec : ℕ) {x : F64} {q : ℚ} (h : Is x q) :
    (q < 0 → (fmtZero true w prec x).head? = some '-') ∧ (0 < q → (fmtZero true w prec x).head? = some '+') := by
  obtain ⟨s, n, hn, rfl, rfl⟩ := is_fin h
  have hU := U_pos
  have h0 : (0 : ℚ) ≤ n / U := by positivity
  cases s
  · exact ⟨fun hlt => absurd hlt (by simpa using h0), fun _ => rfl⟩
  · exact ⟨fun _ => rfl, fun hlt => absurd hlt (by simpa using h0)⟩

/-- **C73.** Every finite position prints as three comma-separated numerals, latitude, longitude and height, that read
back to within half a unit of the sixth, sixth and second decimal, each with its sign in front; the text is 32
characters long when the latitude, longitude and height are below 99.9999995, 999.9999995 and 99999.995 in magnitude. -/
theorem C73_position_text (g : Geodetic360 F64) (a o h : ℚ) (ha : Is g.lat a) (ho : Is g.lon o) (hh : Is g.height h) :
    ∃ s t u : List Char, g.display.splitOn ',' = [s, t, u] ∧
      (∃ x, readDec s = some x ∧ |x - a| ≤ 0.0000005) ∧ (∃ x, readDec t = some x ∧ |x - o| ≤ 0.0000005) ∧
      (∃ x, readDec u = some x ∧ |x - h| ≤ 0.005) ∧
      (a < 0 → s.head? = some '-') ∧ (0 < a → s.head? = some '+') ∧
      (o < 0 → t.head? = some '-') ∧ (0 < o → t.head? = some '+') ∧
      (h < 0 → u.head? = some '-') ∧ (0 < h → u.head? = some '+') ∧
      (|a| < 99.9999995 → |o| < 999.9999995 → |h| < 99999.995 →
        s.length = 10 ∧ t.length = 11 ∧ u.length = 9 ∧ g.display.length = 32) := by
  refine ⟨fmtZero true 10 6 g.lat, fmtZero true 11 6 g.lon, fmtZero true 9 2 g.height, ?_, ?_, ?_, ?_,
    (fmtZero_sign _ _ ha).1, (fmtZero_sign _ _ ha).2, (fmtZero_sign _ _ ho).1, (fmtZero_sign _ _ ho).2,
    (fmtZero_sign _ _ hh).1, (fmtZero_sign _ _ hh).2, ?_⟩
  · unfold Geodetic360.display
    rw [splitOn_cons_of (NumChar.not_mem (fmtZero_chars _ _ _ ha)).1, splitOn_cons_of (NumChar.not_mem (fmtZero_chars _ _ _ ho)).1,
      List.splitOn_eq_singleton (NumChar.not_mem (fmtZero_chars _ _ _ hh)).1]
  · obtain ⟨x, h1, h2⟩ := read_fmtZero true 10 6 ha; exact ⟨x, h1, h2.trans (by norm_num)⟩
  · obtain ⟨x, h1, h2⟩ := read_fmtZero true 11 6 ho; exact ⟨x, h1, h2.trans (by norm_num)⟩
  · obtain ⟨x, h1, h2⟩ := read_fmtZero true 9 2 hh; exact ⟨x, h1, h2.trans (by norm_num)⟩
  · intro h1 h2 h3
    have e1 := fmtZero_length 1 6 10 (by norm_num) (by norm_num) ha (h1.trans_le (by norm_num))
    have e2 := fmtZero_length 2 6 11 (by norm_num) (by norm_num) ho (h2.trans_le (by norm_num))
    have e3 := fmtZero_length 4 2 9 (by norm_num) (by norm_num) hh (h3.trans_le (by norm_num))
    refine ⟨e1, e2, e3, ?_⟩
    unfold Geodetic360.display
    simp only [List.length_append, List.length_cons, e1, e2, e3]

example : Is (lit (-33) : F64) (-33) ∧ Is (lit 151 : F64) 151 ∧ Is (lit 58 : F64) 58 := by
  refine ⟨?_, ?_, ?_⟩
  · have := Is.lit_int (-33) (by norm_num); push_cast at this; exact this
  · have := Is.lit_int 151 (by norm_num); push_cast at this; exact this
  · have := Is.lit_int 58 (by norm_num); push_cast at this; exact this

-- the position of the test `test_geodetic_display`
example : (⟨lit 123.456789, lit 22.654321, lit 33333.333⟩ : Geodetic360 F64).display = "+22.654321,+123.456789,+33333.33".toList ∧
    (⟨lit (-0.0000004), lit (-9.5), lit 0⟩ : Geodetic360 F64).display = "-09.500000,-000.000000,+00000.00".toList := by
  decide +kernel

/-- One coordinate of `Geodetic360::from` away from the ends of the range. -/
theorem wrap_nb (m : ℤ) (m0 : 90 ≤ m) (m1 : m ≤ 180) {x : F64} {l : ℚ} (hx : Is x l)
    (hl : |(l : ℝ)| ≤ m * (Real.pi / 180) - 1 / 10 ^ 13) :
    Near (remEuclid (x /. DEGREE +. lit (m : ℚ)) (lit ((2 * m : ℤ) : ℚ)) -. lit (m : ℚ)) (l * 180 / Real.pi) (2 / 10 ^ 13) := by
  have pp := Real.pi_pos
  have p1 := Real.pi_gt_d2
  have p2 := Real.pi_lt_d2
  have mr : (90 : ℝ) ≤ m ∧ (m : ℝ) ≤ 180 := ⟨by exact_mod_cast m0, by exact_mod_cast m1⟩
  have hl1 : |(l : ℝ)| ≤ 3.15 := by
    refine hl.trans ?_
    have : (m : ℝ) * (Real.pi / 180) ≤ 180 * (Real.pi / 180) := mul_le_mul_of_nonneg_right mr.2 (by positivity)
    norm_num at this p2 ⊢
    linarith
  have hd : |(l : ℝ) / (Real.pi / 180)| ≤ m - 5 / 10 ^ 12 := by
    rw [abs_div, abs_of_pos (show (0 : ℝ) < Real.pi / 180 by positivity), div_le_iff₀ (by positivity)]
    refine hl.trans ?_
    norm_num at p2 ⊢
    nlinarith
  have t := (NB.of_is hx hl1).div degree_nb (β := 0.0174) (by
      rw [abs_of_pos (by positivity)]; norm_num at p1 ⊢; linarith) (by norm_num) (E := 45 / 10 ^ 15) (M := 182) (by norm_num)
  have lm : Is (lit (m : ℚ) : F64) m := Is.lit_int m (by rw [abs_of_pos (by omega)]; norm_num; omega)
  have l2m : Is (lit ((2 * m : ℤ) : ℚ) : F64) (2 * m : ℤ) := Is.lit_int (2 * m) (by
    rw [abs_of_pos (by omega)]; norm_num; omega)
  have nm : NB (lit (m : ℚ) : F64) (m : ℝ) 0 180 :=
    NB.of_is' lm (by push_cast; rfl) (by rw [abs_of_nonneg (by linarith)]; exact mr.2)
  have s := t.add nm (E := 9 / 10 ^ 14) (M := 362) (by norm_num)
  obtain ⟨r, hr, e1, -⟩ := s.exists_is
  rw [abs_le] at hd e1
  have r0 : (0 : ℝ) < r := by linarith [e1.1, hd.1, show (9 / 10 ^ 14 : ℝ) < 5 / 10 ^ 12 by norm_num]
  have r1 : (r : ℝ) < 2 * m := by linarith [e1.2, hd.2, show (9 / 10 ^ 14 : ℝ) < 5 / 10 ^ 12 by norm_num]
  have r0' : (0 : ℚ) < r := by exact_mod_cast r0
  have r1' : r < ((2 * m : ℤ) : ℚ) := by exact_mod_cast r1
  have mq : (0 : ℚ) < ((2 * m : ℤ) : ℚ) := by exact_mod_cast (by omega : 0 < 2 * m)
  have hrem := hr.rem l2m mq.ne'
  have tz : truncQ (r / ((2 * m : ℤ) : ℚ)) = 0 := by
    have h1 : 0 ≤ r / ((2 * m : ℤ) : ℚ) := by positivity
    have h2 : r / ((2 * m : ℤ) : ℚ) < 1 := by rw [div_lt_one mq]; exact r1'
    rw [truncQ_nonneg h1, Int.floor_eq_zero_iff]
    exact ⟨h1, h2⟩
  rw [tz] at hrem
  have l0 : Is (lit 0 : F64) 0 := by have := Is.lit_int 0 (by norm_num); push_cast at this; exact this
  have hE : Is (remEuclid (x /. DEGREE +. lit (m : ℚ)) (lit ((2 * m : ℤ) : ℚ))) r := by
    unfold remEuclid
    simp only
    rw [hrem.lt l0, if_neg (by simp; exact r0'.le)]
    exact hrem.congr (by simp)
  have nE : NB (remEuclid (x /. DEGREE +. lit (m : ℚ)) (lit ((2 * m : ℤ) : ℚ))) (↑l / (Real.pi / 180) + ↑m) (9 / 10 ^ 14) 362 :=
    ⟨⟨r, hE, by rw [abs_le]; exact e1⟩, s.mag⟩
  have := (nE.sub nm (E := 2 / 10 ^ 13) (M := 600) (by norm_num)).near
  refine this.congr ?_
  field_simp
  ring

/-- **C73.** A position in radians with longitude and latitude at least `1e-13` inside `(-π, π)` and `(-π/2, π/2)`
prints without a panic; the latitude and longitude read back to within `5.00001e-7` degrees of the exact ones. -/
theorem C73_radians_text (p : Profile) (g : Geodetic F64) (l f h : ℚ) (hl : Is g.elong l) (hf : Is g.phi f)
    (hh : Is g.height h) (l1 : |(l : ℝ)| ≤ Real.pi - 1 / 10 ^ 13) (f1 : |(f : ℝ)| ≤ Real.pi / 2 - 1 / 10 ^ 13) :
    ∃ d s t u, Geodetic.display p g = .ok d ∧ d.splitOn ',' = [s, t, u] ∧
      (∃ x : ℚ, readDec s = some x ∧ |(x : ℝ) - f * 180 / Real.pi| ≤ 0.000000500001) ∧
      (∃ x : ℚ, readDec t = some x ∧ |(x : ℝ) - l * 180 / Real.pi| ≤ 0.000000500001) ∧
      (∃ x : ℚ, readDec u = some x ∧ |x - h| ≤ 0.005) := by
  have n1 := wrap_nb 180 (by norm_num) (by norm_num) hl (l1.trans (by push_cast; linarith [Real.pi_pos]))
  have n2 := wrap_nb 90 (by norm_num) (by norm_num) hf (f1.trans (by push_cast; linarith [Real.pi_pos]))
  obtain ⟨r, hr⟩ : ∃ r, Geodetic360.fromGeodetic p g = .ok r := by
    refine C51_no_panic g l f hl hf ?_ ?_ p
    · have : |(l : ℝ)| ≤ 10 ^ 300 := l1.trans (by
        have h1 := Real.pi_le_four
        have h2 : (10 : ℝ) ^ 1 ≤ 10 ^ 300 := pow_le_pow_right₀ (by norm_num) (by norm_num)
        have h3 : (0 : ℝ) ≤ 1 / 10 ^ 13 := by norm_num
        generalize (10 : ℝ) ^ 300 = H at *
        linarith [Real.pi_pos])
      exact_mod_cast this
    · have : |(f : ℝ)| ≤ 10 ^ 300 := f1.trans (by
        have h1 := Real.pi_le_four
        have h2 : (10 : ℝ) ^ 1 ≤ 10 ^ 300 := pow_le_pow_right₀ (by norm_num) (by norm_num)
        have h3 : (0 : ℝ) ≤ 1 / 10 ^ 13 := by norm_num
        generalize (10 : ℝ) ^ 300 = H at *
        linarith [Real.pi_pos])
      exact_mod_cast this
  have hv : r = ⟨remEuclid (g.elong /. DEGREE +. lit 180) (lit 360) -. lit 180,
      remEuclid (g.phi /. DEGREE +. lit 90) (lit 180) -. lit 90, g.height⟩ := by
    unfold Geodetic360.fromGeodetic at hr
    simp only at hr
    split at hr
    · cases hr
    · split at hr
      · cases hr
      · cases hr; rfl
  norm_num at n1 n2
  obtain ⟨o, io, eo⟩ := n1
  obtain ⟨a, ia, ea⟩ := n2
  obtain ⟨s, t, u, h1, ⟨x, h2, h3⟩, ⟨y, h4, h5⟩, h6, -⟩ := C73_position_text r a o h (by rw [hv]; exact ia)
    (by rw [hv]; exact io) (by rw [hv]; exact hh)
  have key : ∀ (x a : ℚ) (b : ℝ), |x - a| ≤ 0.0000005 → |(a : ℝ) - b| ≤ 1 / 5000000000000 → |(x : ℝ) - b| ≤ 0.000000500001 := by
    intro x a b k1 k2
    have k1' : |(x : ℝ) - a| ≤ 0.0000005 := by
      have := (Rat.cast_le (K := ℝ)).mpr k1; push_cast at this; norm_num at this ⊢; exact this
    rw [abs_le] at *
    norm_num at *
    constructor <;> linarith
  refine ⟨r.display, s, t, u, ?_, h1, ⟨x, h2, key _ _ _ h3 ea⟩, ⟨y, h4, key _ _ _ h5 eo⟩, h6⟩
  unfold Geodetic.display
  rw [hr]
  rfl

example : ∃ d s t u, Geodetic.display .checked (⟨lit (-2), lit 0.75, lit 100⟩ : Geodetic F64) = .ok d ∧
    d.splitOn ',' = [s, t, u] := by
  have h1 : Is (lit (-2) : F64) (-2) := by have := Is.lit_int (-2) (by norm_num); push_cast at this; exact this
  have h2 : Is (lit 0.75 : F64) (3 / 4) := by
    refine (Is.lit_exact 0.75 ?_ ?_).congr (by norm_num)
    · have := RepQ.dyadic 3 2 (by norm_num) (by norm_num)
      norm_num at this ⊢; exact this
    · exact small_le_HUGE (by norm_num)
  have h3 : Is (lit 100 : F64) 100 := by have := Is.lit_int 100 (by norm_num); push_cast at this; exact this
  have p := Real.pi_gt_d2
  obtain ⟨d, s, t, u, e1, e2, -⟩ := C73_radians_text .checked ⟨lit (-2), lit 0.75, lit 100⟩ _ _ _ h1 h2 h3
    (by norm_num at p ⊢; linarith) (by push_cast; rw [abs_of_pos (by norm_num)]; norm_num at p ⊢; linarith)
  exact ⟨d, s, t, u, e1, e2⟩

/-! ## C74 -/

theorem readMag_digits {l : List Char} (h : ∀ c ∈ l, IsDig c) : readMag l = (readNat l).map fun (n : ℕ) => (n : ℚ) := by
  obtain ⟨-, -, i3, i4⟩ := takeWhile_digits h []
  unfold readMag
  rw [i3, i4]

theorem readDec_digits {c : Char} {r : List Char} (hc : IsDig c) (s : Bool) :
    readDec ((if s then ['-'] else []) ++ c :: r) = (readMag (c :: r)).map fun x => if s then -x else x := by
  have := readDec_sign 0 false s (r := r) hc
  simpa [fmtSign] using this

theorem pad_cons (w n : ℕ) : ∃ c r, padLeft w (dec n) = c :: r ∧ IsDig c := by
  have h := padLeft_digits w (dec_digits n)
  cases e : padLeft w (dec n) with
  | nil =>
    have h1 := congrArg List.length e
    have h2 := dec_length_ge n
    rw [padLeft, List.length_append, List.length_nil] at h1
    omega
  | cons c r => exact ⟨c, r, rfl, h c (by rw [e]; simp)⟩

/-- A printed integer reads back. -/
theorem read_fmtInt (w : ℕ) (z : ℤ) : readDec (fmtInt w z) = some (z : ℚ) := by
  unfold fmtInt
  split
  · rename_i hz
    obtain ⟨c, r, e, hc⟩ := pad_cons (w - 1) z.natAbs
    have h1 := readDec_digits (r := r) hc true
    rw [← e] at h1
    simp only [if_true, List.singleton_append] at h1
    rw [h1, readMag_digits (padLeft_digits _ (dec_digits _)), readNat_pad]
    simp only [Option.map_some, Option.some.injEq]
    have : (z.natAbs : ℤ) = -z := by omega
    have h2 : ((z.natAbs : ℤ) : ℚ) = ((-z : ℤ) : ℚ) := by rw [this]
    rw [Int.cast_natCast, Int.cast_neg] at h2
    rw [h2, neg_neg]
  · rename_i hz
    obtain ⟨c, r, e, hc⟩ := pad_cons w z.natAbs
    have h1 := readDec_digits (r := r) hc false
    rw [← e] at h1
    simp only [Bool.false_eq_true, if_false, List.nil_append] at h1
    rw [h1, readMag_digits (padLeft_digits _ (dec_digits _)), readNat_pad]
    simp only [Option.map_some, Option.some.injEq]
    have : (z.natAbs : ℤ) = z := by omega
    have h2 : ((z.natAbs : ℤ) : ℚ) = (z : ℚ) := by rw [this]
    rw [Int.cast_natCast] at h2
    exact h2

theorem fmtInt_length_ge (w : ℕ) (z : ℤ) : w ≤ (fmtInt w z).length := by
  unfold fmtInt padLeft
  split <;> simp <;> omega

/-- **C74.** Every accepted date, negative years included, prints as year, month and day separated by `-`, which read
back exactly; month and day have two characters and the year at least four; the text has ten characters for the years
`-999` to `9999`. -/
theorem C74_date_text (d : GregorianDate) (hd : GregorianDate.new d.year d.month d.day = .ok d) :
    ∃ s t u : List Char, d.display = s ++ '-' :: (t ++ '-' :: u) ∧ readDec s = some (d.year : ℚ) ∧
      readDec t = some (d.month : ℚ) ∧ readDec u = some (d.day : ℚ) ∧ t.length = 2 ∧ u.length = 2 ∧ 4 ≤ s.length ∧
      (-999 ≤ d.year → d.year ≤ 9999 → d.display.length = 10) := by
  obtain ⟨-, h⟩ := (accepted_iff d).mp hd
  obtain ⟨h1, h2, h3, h4⟩ := h
  have h5 := monthLen_le d.civil.1 d.civil.2.1
  simp only [GregorianDate.civil] at h1 h2 h3 h4 h5
  have l1 : (fmtInt 2 d.month).length = 2 := by
    rw [fmtInt_fixed 1 _ (by omega) (by norm_num; omega), fixedD_length]
  have l2 : (fmtInt 2 d.day).length = 2 := by
    rw [fmtInt_fixed 1 _ (by omega) (by norm_num; omega), fixedD_length]
  refine ⟨fmtInt 4 d.year, fmtInt 2 d.month, fmtInt 2 d.day, rfl, read_fmtInt _ _, read_fmtInt _ _, read_fmtInt _ _, l1, l2,
    fmtInt_length_ge 4 _, fun y0 y1 => ?_⟩
  have l3 : (fmtInt 4 d.year).length = 4 := by
    by_cases hy : 0 ≤ d.year
    · rw [fmtInt_fixed 3 _ hy (by norm_num; omega), fixedD_length]
    · unfold fmtInt
      rw [if_pos (by omega), padLeft_dec 2 _ (by norm_num; omega)]
      simp [fixedD_length]
  unfold GregorianDate.display
  simp [l1, l2, l3]

example : GregorianDate.new (-44) 3 15 = .ok ⟨-44, 3, 15⟩ ∧ (GregorianDate.mk (-44) 3 15).display = "-044-03-15".toList ∧
    (GregorianDate.mk (-4712) 1 1).display = "-4712-01-01".toList := by decide

/-- **C74.** Different accepted dates print differently, over all years. -/
theorem C74_date_injective (d d' : GregorianDate) (hd : GregorianDate.new d.year d.month d.day = .ok d)
    (hd' : GregorianDate.new d'.year d'.month d'.day = .ok d') (h : d.display = d'.display) : d = d' := by
  obtain ⟨s, t, u, e, a1, a2, a3, l1, l2, -⟩ := C74_date_text d hd
  obtain ⟨s', t', u', e', a1', a2', a3', l1', l2', -⟩ := C74_date_text d' hd'
  rw [e, e'] at h
  have h1 := List.append_inj' h (by simp [l1, l2, l1', l2'])
  obtain ⟨rfl, h2⟩ := h1
  have h3 := List.append_inj (List.cons.inj h2).2 (by rw [l1, l1'])
  obtain ⟨rfl, h4⟩ := h3
  obtain rfl := (List.cons.inj h4).2
  rw [a1] at a1'
  rw [a2] at a2'
  rw [a3] at a3'
  cases d; cases d'
  simp only [Option.some.injEq, Int.cast_inj] at a1' a2' a3'
  simp only [GregorianDate.mk.injEq]
  exact ⟨a1', a2', a3'⟩

/-- A number printed with filling zeros reads back when the width leaves no room for zeros before a minus sign. -/
theorem read_fmtFill (prec : ℕ) (hp : prec ≠ 0) {x : F64} {q : ℚ} (h : Is x q) :
    ∃ t, readDec (fmtFill (prec + 3) prec x) = some t ∧ |t - q| ≤ 1 / 2 / 10 ^ prec := by
  obtain ⟨s, n, hn, rfl, rfl⟩ := is_fin h
  have e : fixedMag prec n = fmtMag prec n := by unfold fmtMag; rw [if_neg hp]
  have lg : prec + 2 ≤ (fixedMag prec n).length := by
    rw [fixedMag_eq]
    have h1 := dec_length_ge (rhe (n * 10 ^ prec) UN / 10 ^ prec)
    have h2 : prec ≤ (padLeft prec (dec (rhe (n * 10 ^ prec) UN % 10 ^ prec))).length := by
      rw [padLeft, List.length_append, List.length_replicate]
      omega
    rw [List.length_append, List.length_cons]
    omega
  have hr := rhe_dec prec n
  cases s
  · obtain ⟨c, r, hc, hd⟩ := fmtMag_head (prec + 3) prec n
    have hm := readMag_fmt (prec + 3) prec n
    refine ⟨_, ?_, signed_err (s := false) hr⟩
    have h0 : fmtFill (prec + 3) prec (.fin false n hn) = padLeft (prec + 3) (fixedMag prec n) := rfl
    rw [h0, e, hc]
    have := readDec_digits (r := r) hd false
    rw [if_neg Bool.false_ne_true, List.nil_append] at this
    rw [this, ← hc, hm, Option.map_some]
  · obtain ⟨c, r, hc, hd⟩ := fmtMag_head 0 prec n
    have hm := readMag_fmt 0 prec n
    refine ⟨_, ?_, signed_err (s := true) hr⟩
    have h0 : fmtFill (prec + 3) prec (.fin true n hn) = padLeft (prec + 3) ('-' :: fixedMag prec n) := rfl
    have h1 : padLeft (prec + 3) ('-' :: fixedMag prec n) = '-' :: fixedMag prec n := by
      unfold padLeft
      rw [List.length_cons, show prec + 3 - ((fixedMag prec n).length + 1) = 0 by omega]
      rfl
    rw [padLeft_zero] at hc hm
    have := readDec_digits (r := r) hd true
    rw [if_pos rfl, List.singleton_append] at this
    rw [h0, h1, e, hc, this, ← hc, hm, Option.map_some]

/-- **C74.** Every time of day with a finite second, valid or not, prints as hour, minute and second separated by `:`;
hour and minute read back exactly and the second to within half a microsecond. -/
theorem C74_time_text (t : HMS F64) (s : ℚ) (hs : Is t.second s) :
    ∃ a b c : List Char, t.display.splitOn ':' = [a, b, c] ∧ readDec a = some (t.hour : ℚ) ∧
      readDec b = some (t.minute : ℚ) ∧ ∃ x, readDec c = some x ∧ |x - s| ≤ 0.0000005 := by
  obtain ⟨x, h1, h2⟩ := read_fmtFill 6 (by norm_num) hs
  refine ⟨fmtInt 2 t.hour, fmtInt 2 t.minute, fmtFill 9 6 t.second, ?_, read_fmtInt _ _, read_fmtInt _ _, x, h1,
    h2.trans (by norm_num)⟩
  unfold HMS.display
  rw [splitOn_cons_of (NumChar.not_mem (fmtInt_chars _ _)).2.1, splitOn_cons_of (NumChar.not_mem (fmtInt_chars _ _)).2.1,
    List.splitOn_eq_singleton (NumChar.not_mem (fmtFill_chars _ _ (by norm_num) hs)).2.1]

example : (⟨7, 5, lit 9.0625⟩ : HMS F64).display = "07:05:09.062500".toList ∧
    (⟨100, 5, lit (-3)⟩ : HMS F64).display = "100:05:-3.000000".toList := by decide +kernel

end Verif
