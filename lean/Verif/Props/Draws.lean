import Verif.Model.Draws
import Verif.Props.TestSun
import Mathlib.Analysis.Real.Pi.Bounds

/-!
# C102: the arguments that `fortran/test_sofa.f90` draws
-/

namespace Verif
open F64 Arith Spec

/-- `x` is a finite number from `a` up to, but not including, `b`. -/
def Below (x : F64) (a b : ℚ) : Prop := ∃ q, Is x q ∧ a ≤ q ∧ q < b

/-- `x` is a finite number from `a` to `b`. -/
def Within (x : F64) (a b : ℚ) : Prop := ∃ q, Is x q ∧ a ≤ q ∧ q ≤ b

theorem unit_rep (m : ℕ) (h : m < 2 ^ 53) : RepQ ((m : ℚ) / 2 ^ 53) := by
  have := RepQ.dyadic (m : ℤ) 53 (by rw [abs_of_nonneg (by positivity)]; exact_mod_cast h.le) (by norm_num)
  simpa using this

theorem unit_lt {m : ℕ} (h : m < 2 ^ 53) : (m : ℚ) / 2 ^ 53 ≤ 1 - 1 / 2 ^ 53 := by
  have h' : (m : ℚ) + 1 ≤ 2 ^ 53 := by exact_mod_cast h
  rw [show (1 : ℚ) - 1 / 2 ^ 53 = (2 ^ 53 - 1) / 2 ^ 53 by norm_num]
  gcongr
  linarith

theorem unit_is {m : ℕ} (h : m < 2 ^ 53) : Is (unitDraw m) (m / 2 ^ 53) := by
  refine Is.lit_exact _ (unit_rep m h) (small_le_HUGE ?_)
  rw [abs_of_nonneg (by positivity)]
  exact (unit_lt h).trans (by norm_num)

theorem below_unit {m : ℕ} (h : m < 2 ^ 53) : Below (unitDraw m) 0 1 :=
  ⟨_, unit_is h, by positivity, (unit_lt h).trans_lt (by norm_num)⟩

theorem djcf_is : Is DJC_F 36525 := by have := Is.lit_int 36525 (by norm_num); push_cast at this; exact this
theorem dj00f_is : Is DJ00_F 2451545 := by have := Is.lit_int 2451545 (by norm_num); push_cast at this; exact this
theorem twoPi_is : Is TWO_PI_F (13176795 / 2 ^ 21) := by
  refine Is.lit_exact _ ?_ (small_le_HUGE (by norm_num [abs_le]))
  have := RepQ.dyadic 13176795 21 (by norm_num) (by norm_num)
  simpa using this

/-- The greatest product rounds down. -/
theorem scale_draw {x : F64} {c z : ℚ} (hx : Is x c) (hc : 0 < c) (hcb : c ≤ 10 ^ 6) (hz : RepQ z) (hzc : |z - (1 - 1 / 2 ^ 53) * c| < c / 2 ^ 53)
    {m : ℕ} (h : m < 2 ^ 53) :
    ∃ q, Is (unitDraw m *. x) q ∧ Is (x *. unitDraw m) q ∧ q = RN (m / 2 ^ 53 * c) ∧ 0 ≤ q ∧ q < c := by
  have u0 : (0 : ℚ) ≤ (m : ℚ) / 2 ^ 53 := by positivity
  have u1 := unit_lt h
  have p0 : 0 ≤ (m : ℚ) / 2 ^ 53 * c := mul_nonneg u0 hc.le
  have p1 : (m : ℚ) / 2 ^ 53 * c ≤ (1 - 1 / 2 ^ 53) * c := mul_le_mul_of_nonneg_right u1 hc.le
  have p2 : (1 - 1 / 2 ^ 53 : ℚ) * c ≤ c := by
    have : (1 - 1 / 2 ^ 53 : ℚ) * c = c - c / 2 ^ 53 := by ring
    rw [this]
    have : 0 < c / 2 ^ 53 := by positivity
    linarith
  have hs : |(m : ℚ) / 2 ^ 53 * c| ≤ 2 ^ 200 := by
    rw [abs_of_nonneg p0]
    exact (p1.trans (p2.trans hcb)).trans (by norm_num)
  refine ⟨_, (unit_is h).mul hx (small_le_HUGE hs), ?_, rfl, RN_nonneg p0, ?_⟩
  · have := hx.mul (unit_is h) (small_le_HUGE (by rw [mul_comm]; exact hs))
    rwa [mul_comm c] at this
  · refine (RN_mono p1).trans_lt (lt_of_le_of_ne ?_ ?_)
    · have := RN_mono p2
      rwa [RN_exact hx.rep] at this
    · intro e
      have := RN_nearest ((1 - 1 / 2 ^ 53) * c) hz
      rw [e, show c - (1 - 1 / 2 ^ 53) * c = c / 2 ^ 53 by ring, abs_of_pos (by positivity)] at this
      linarith

theorem date_draw {m : ℕ} (h : m < 2 ^ 53) :
    ∃ q, Is (unitDraw m *. DJC_F) q ∧ Is (DJC_F *. unitDraw m) q ∧ q = RN (m / 2 ^ 53 * 36525) ∧ 0 ≤ q ∧ q < 36525 := by
  refine scale_draw djcf_is (by norm_num) (by norm_num) (z := (5019957775564799 : ℤ) / 2 ^ 37) (RepQ.dyadic _ 37 (by norm_num) (by norm_num)) ?_ h
  norm_num [abs_lt]

theorem angle_draw {m : ℕ} (h : m < 2 ^ 53) : Below (unitDraw m *. TWO_PI_F) 0 (13176795 / 2 ^ 21) := by
  obtain ⟨q, h1, -, -, h2, h3⟩ := scale_draw twoPi_is (by norm_num) (by norm_num) (z := (7074237948887039 : ℤ) / 2 ^ 50)
    (RepQ.dyadic _ 50 (by norm_num) (by norm_num)) (by norm_num [abs_lt]) h
  exact ⟨q, h1, h2, h3⟩

/-- Sums with the date of J2000.0. -/
theorem plus_j2000 {x : F64} {a b : ℚ} (hx : Is x a) (ha : 0 ≤ a) (hb : a ≤ b) (hbi : RepQ (2451545 + b)) (hbs : b ≤ 10 ^ 6) :
    Within (DJ00_F +. x) 2451545 (2451545 + b) ∧ Within (x +. DJ00_F) 2451545 (2451545 + b) := by
  have hs : |2451545 + a| ≤ 2 ^ 200 := by
    rw [abs_of_nonneg (by linarith)]
    have : (10 : ℚ) ^ 7 ≤ 2 ^ 200 := by norm_num
    linarith
  have h1 := dj00f_is.add hx (small_le_HUGE hs)
  have h2 := hx.add dj00f_is (small_le_HUGE (by rw [add_comm]; exact hs))
  rw [add_comm a] at h2
  have l : 2451545 ≤ RN (2451545 + a) := by
    have := RN_mono (show (2451545 : ℚ) ≤ 2451545 + a by linarith)
    rwa [RN_exact dj00f_is.rep] at this
  have g : RN (2451545 + a) ≤ 2451545 + b := by
    have := RN_mono (show 2451545 + a ≤ 2451545 + b by linarith)
    rwa [RN_exact hbi] at this
  exact ⟨⟨_, h1, l, g⟩, ⟨_, h2, l, g⟩⟩

theorem tt1_draw {m : ℕ} (h : m < 2 ^ 53) : Within (tt1Draw (unitDraw m)) 2451545 2488070 := by
  obtain ⟨q, -, h1, -, h2, h3⟩ := date_draw h
  have := (plus_j2000 h1 h2 h3.le (by have := RepQ.int 2488070 (by norm_num); push_cast at this; convert this using 1; norm_num) (by norm_num)).1
  norm_num at this
  exact this

theorem date1_draw {m : ℕ} (h : m < 2 ^ 53) : Within (unitDraw m +. DJ00_F) 2451545 2451546 := by
  obtain ⟨q, h1, h2, h3⟩ := below_unit h
  have := (plus_j2000 h1 h2 h3.le (by have := RepQ.int 2451546 (by norm_num); push_cast at this; convert this using 1; norm_num) (by norm_num)).2
  norm_num at this
  exact this

/-- The ranges of the arguments in the tables. -/
structure Drawn (D : SofaData) : Prop where
  pom : ∀ d ∈ D.pom, Below d.1 0 1 ∧ Below d.2.1 0 1 ∧ Below d.2.2.1 0 1
  nut : ∀ d ∈ D.nut, Is d.1 2451545 ∧ Below d.2.1 0 36525
  numat : ∀ d ∈ D.numat, Below d.1 0 (13176795 / 2 ^ 21) ∧ Below d.2.1 0 (13176795 / 2 ^ 21) ∧ Below d.2.2.1 0 (13176795 / 2 ^ 21)
  bias : ∀ d ∈ D.bias, Within d.1 2451545 2451546 ∧ Below d.2.1 0 1
  era : ∀ d ∈ D.era, Is d.1 2451545 ∧ Below d.2.1 0 36525
  pr : ∀ d ∈ D.pr, Within d.1 2451545 2488070 ∧ Below d.2.1 0 1
  pnm : ∀ d ∈ D.pnm, Within d.1 2451545 2488070 ∧ Below d.2.1 0 1
  c2i : ∀ d ∈ D.c2i, Within d.1 2451545 2488070 ∧ Below d.2.1 0 1
  cio : ∀ d ∈ D.cio, (∀ i j, Below (d.1 i j) 0 1) ∧ Below d.2.1 0 1 ∧ ∀ i j, Below (d.2.2.1 i j) 0 1
  s00 : ∀ d ∈ D.s00, Within d.1 2451545 2488070 ∧ Below d.2.1 0 1 ∧ Below d.2.2.1 0 1 ∧ Below d.2.2.2.1 0 1
  c2t : ∀ d ∈ D.c2t, Within d.1.1 2451545 2488070 ∧ Below d.1.2.1 0 1 ∧ Is d.1.2.2.1 0 ∧ Is d.1.2.2.2.2.2.1 0

/-- **C102.** For every library and every stream of random bits: eleven tables of 1000 rows, with arguments in these ranges. The
last of the dates are a day later than a century after J2000.0. -/
theorem C102_ranges (L : SofaLib) (b : ℕ → ℕ) (hb : ∀ k, b k < 2 ^ 53) :
    let D := sofaRun L fun k => unitDraw (b k)
    Drawn D ∧ D.pom.length = 1000 ∧ D.nut.length = 1000 ∧ D.numat.length = 1000 ∧ D.bias.length = 1000 ∧ D.era.length = 1000 ∧
      D.pr.length = 1000 ∧ D.pnm.length = 1000 ∧ D.c2i.length = 1000 ∧ D.cio.length = 1000 ∧ D.s00.length = 1000 ∧ D.c2t.length = 1000 := by
  intro D
  have i0 : Is (lit 0 : F64) 0 := by have := Is.lit_int 0 (by norm_num); push_cast at this; exact this
  have date : ∀ k, Below (unitDraw (b k) *. DJC_F) 0 36525 := fun k => by
    obtain ⟨q, h1, -, -, h2, h3⟩ := date_draw (hb k)
    exact ⟨q, h1, h2, h3⟩
  refine ⟨⟨?_, ?_, ?_, ?_, ?_, ?_, ?_, ?_, ?_, ?_, ?_⟩, ?_, ?_, ?_, ?_, ?_, ?_, ?_, ?_, ?_, ?_, ?_⟩
  all_goals first
    | (simp [D, sofaRun, steps]; done)
    | skip
  all_goals
    intro d hd
    simp only [D, sofaRun, steps, List.mem_map] at hd
    obtain ⟨k, -, rfl⟩ := hd
  · exact ⟨below_unit (hb _), below_unit (hb _), below_unit (hb _)⟩
  · exact ⟨dj00f_is, date _⟩
  · exact ⟨angle_draw (hb _), angle_draw (hb _), angle_draw (hb _)⟩
  · exact ⟨date1_draw (hb _), below_unit (hb _)⟩
  · exact ⟨dj00f_is, date _⟩
  · exact ⟨tt1_draw (hb _), below_unit (hb _)⟩
  · exact ⟨tt1_draw (hb _), below_unit (hb _)⟩
  · exact ⟨tt1_draw (hb _), below_unit (hb _)⟩
  · exact ⟨fun i j => below_unit (hb _), below_unit (hb _), fun i j => below_unit (hb _)⟩
  · exact ⟨tt1_draw (hb _), below_unit (hb _), below_unit (hb _), below_unit (hb _)⟩
  · exact ⟨tt1_draw (hb _), below_unit (hb _), i0, i0⟩

example : ∃ b : ℕ → ℕ, (∀ k, b k < 2 ^ 53) ∧ b 0 ≠ b 1 := ⟨fun k => k % 2, fun k => by
  have := Nat.mod_lt k (by norm_num : 2 > 0); show k % 2 < _; omega, by norm_num⟩

/-- A rounding known from a nearby number. -/
theorem RN_near {x z : ℚ} (hz : RepQ z) (hz0 : 0 ≤ z) (hx : 0 ≤ x) (h : 2 * |x - z| * (2 ^ 53 + 1) ≤ z) : RN x = z := by
  obtain ⟨n, hn, e⟩ := hz
  rw [abs_of_nonneg hz0] at e
  have hU := U_pos
  have hzn : (n : ℚ) / U = z := by rw [← e]; field_simp
  rw [← hzn]
  exact RN_eq_of_near hn hx (by rw [hzn]; exact h)

/-- **C102.** The bounds of the dates are attained, and a draw of a nutation angle may exceed a full turn. -/
theorem C102_bounds_attained : Is (tt1Draw (unitDraw (2 ^ 53 - 1))) 2488070 ∧ Is (unitDraw (2 ^ 53 - 1) +. DJ00_F) 2451546 ∧
    ∃ q : ℚ, Is (unitDraw (2 ^ 53 - 1) *. TWO_PI_F) q ∧ 2 * Real.pi < q := by
  have hm : (2 ^ 53 - 1 : ℕ) < 2 ^ 53 := by norm_num
  have hu : (((2 ^ 53 - 1 : ℕ) : ℚ) / 2 ^ 53) = 1 - 1 / 2 ^ 53 := by norm_num
  refine ⟨?_, ?_, ?_⟩
  · obtain ⟨q, -, h1, h2, h3, h4⟩ := date_draw hm
    rw [hu] at h2
    have hq : 36525 - 1 / 2 ^ 37 ≤ q := by
      have hz : RepQ ((5019957775564799 : ℤ) / 2 ^ 37 : ℚ) := RepQ.dyadic _ 37 (by norm_num) (by norm_num)
      have := RN_mono (show ((5019957775564799 : ℤ) / 2 ^ 37 : ℚ) ≤ (1 - 1 / 2 ^ 53) * 36525 by norm_num)
      rw [RN_exact hz, ← h2] at this
      norm_num at this ⊢
      exact this
    have h := dj00f_is.add h1 (small_le_HUGE (by rw [abs_of_nonneg (by linarith)]; exact (show 2451545 + q ≤ 10 ^ 7 by linarith).trans (by norm_num)))
    have e : RN (2451545 + q) = 2488070 := by
      refine RN_near (by have := RepQ.int 2488070 (by norm_num); push_cast at this; exact this) (by norm_num) (by linarith) ?_
      have : |2451545 + q - 2488070| ≤ 1 / 2 ^ 37 := by rw [abs_le]; constructor <;> linarith
      calc 2 * |2451545 + q - 2488070| * (2 ^ 53 + 1) ≤ 2 * (1 / 2 ^ 37) * (2 ^ 53 + 1) := by gcongr
        _ ≤ 2488070 := by norm_num
    rw [e] at h
    exact h
  · have h1 := unit_is hm
    rw [hu] at h1
    have h := h1.add dj00f_is (small_le_HUGE (by norm_num [abs_le]))
    rwa [RN_near (z := 2451546) (by have := RepQ.int 2451546 (by norm_num); push_cast at this; exact this) (by norm_num) (by norm_num) (by norm_num [abs_le])] at h
  · obtain ⟨q, h1, -, h2, -, -⟩ := scale_draw twoPi_is (by norm_num) (by norm_num) (z := (7074237948887039 : ℤ) / 2 ^ 50)
      (RepQ.dyadic _ 50 (by norm_num) (by norm_num)) (by norm_num [abs_lt]) hm
    refine ⟨q, h1, ?_⟩
    rw [hu] at h2
    have hz : RepQ ((7074237948887039 : ℤ) / 2 ^ 50 : ℚ) := RepQ.dyadic _ 50 (by norm_num) (by norm_num)
    have := RN_mono (show ((7074237948887039 : ℤ) / 2 ^ 50 : ℚ) ≤ (1 - 1 / 2 ^ 53) * (13176795 / 2 ^ 21) by norm_num)
    rw [RN_exact hz, ← h2] at this
    have h3 : (((7074237948887039 : ℤ) / 2 ^ 50 : ℚ) : ℝ) ≤ q := by exact_mod_cast this
    have h4 := Real.pi_lt_d20
    push_cast at h3
    norm_num at h3 h4
    linarith

/-- **C102.** Because the literal in line 3 has no exponent letter it is of single precision: `TWO_PI` is the number of 24 bits nearest to it, `1.7e-7`
more than `2*pi`. -/
theorem C102_single_literal : Is TWO_PI_F (13176795 / 2 ^ 21) ∧ (2 : ℤ) ^ 23 ≤ 13176795 ∧ (13176795 : ℤ) < 2 ^ 24 ∧
    (∀ k e : ℤ, |k| < 2 ^ 24 → |(13176795 / 2 ^ 21 : ℚ) - 6.283185307179586476925287| ≤ |(k : ℚ) * 2 ^ e - 6.283185307179586476925287|) ∧
    1.7e-7 < ((13176795 / 2 ^ 21 : ℚ) : ℝ) - 2 * Real.pi := by
  refine ⟨twoPi_is, by norm_num, by norm_num, ?_, ?_⟩
  · intro k e hk
    rw [abs_of_nonneg (show (0 : ℚ) ≤ 13176795 / 2 ^ 21 - 6.283185307179586476925287 by norm_num)]
    by_cases he : -21 ≤ e
    · obtain ⟨j, rfl⟩ : ∃ j : ℕ, e = j - 21 := ⟨(e + 21).toNat, by omega⟩
      have : (k : ℚ) * 2 ^ ((j : ℤ) - 21) = ((k * 2 ^ j : ℤ) : ℚ) / 2 ^ 21 := by
        rw [zpow_sub₀ (by norm_num), zpow_natCast]
        push_cast
        norm_num
        ring
      rw [this]
      generalize k * 2 ^ j = n
      rcases le_or_gt n 13176794 with h | h
      · have h' : (n : ℚ) ≤ 13176794 := by exact_mod_cast h
        have : (n : ℚ) / 2 ^ 21 ≤ 13176794 / 2 ^ 21 := by gcongr
        refine le_trans ?_ (neg_le_abs _)
        norm_num at this ⊢
        linarith
      · have h' : (13176795 : ℚ) ≤ n := by exact_mod_cast h
        have : (13176795 : ℚ) / 2 ^ 21 ≤ n / 2 ^ 21 := by gcongr
        refine le_trans ?_ (le_abs_self _)
        norm_num at this ⊢
        linarith
    · have h1 : (2 : ℚ) ^ e ≤ 2 ^ (-22 : ℤ) := zpow_le_zpow_right₀ (by norm_num) (by omega)
      have hk' : (k : ℚ) ≤ 2 ^ 24 := by exact_mod_cast (le_abs_self k).trans hk.le
      have h2 : (k : ℚ) * 2 ^ e ≤ 4 := by
        rcases le_or_gt (k : ℚ) 0 with h | h
        · have : (k : ℚ) * 2 ^ e ≤ 0 := mul_nonpos_of_nonpos_of_nonneg h (by positivity)
          linarith
        · calc (k : ℚ) * 2 ^ e ≤ 2 ^ 24 * 2 ^ (-22 : ℤ) := by gcongr
            _ = 4 := by norm_num
      refine le_trans ?_ (neg_le_abs _)
      norm_num at *
      linarith
  · have := Real.pi_lt_d20
    push_cast
    norm_num at *
    linarith

/-- **C102.** The data in the repository show it: `3.2400217456276417E-003`, the first number of test_data.rs:3311 (a row of `NUMAT_DATA`), is a draw times
this `TWO_PI`, but is not a draw times `2*pi` in double precision. -/
theorem C102_data_show_it : (∃ m < 2 ^ 53, unitDraw m *. TWO_PI_F = lit 3.2400217456276417e-3) ∧
    ∀ m < 2 ^ 53, unitDraw m *. lit 6.283185307179586476925287 ≠ lit 3.2400217456276417e-3 := by
  have hX : Is (lit 3.2400217456276417e-3 : F64) ((7470981491855847 : ℤ) / 2 ^ 61) := by
    have := Is.lit 3.2400217456276417e-3 (small_le_HUGE (by norm_num [abs_le]))
    rwa [RN_near (z := (7470981491855847 : ℤ) / 2 ^ 61) (RepQ.dyadic _ 61 (by norm_num) (by norm_num)) (by norm_num) (by norm_num)
      (by norm_num [abs_le])] at this
  have hP : Is (lit 6.283185307179586476925287 : F64) ((7074237752028440 : ℤ) / 2 ^ 50) := by
    have := Is.lit 6.283185307179586476925287 (small_le_HUGE (by norm_num [abs_le]))
    rwa [RN_near (z := (7074237752028440 : ℤ) / 2 ^ 50) (RepQ.dyadic _ 50 (by norm_num) (by norm_num)) (by norm_num) (by norm_num)
      (by norm_num [abs_le])] at this
  constructor
  · refine ⟨4644701566753, by norm_num, ?_⟩
    have h := (unit_is (m := 4644701566753) (by norm_num)).mul twoPi_is (small_le_HUGE (by norm_num [abs_le]))
    rw [RN_near (z := (7470981491855847 : ℤ) / 2 ^ 61) (RepQ.dyadic _ 61 (by norm_num) (by norm_num)) (by norm_num) (by norm_num)
      (by norm_num [abs_le])] at h
    exact same_of_value h hX (by norm_num)
  · intro m hm e
    have u1 := unit_lt hm
    have u0 : (0 : ℚ) ≤ (m : ℚ) / 2 ^ 53 := by positivity
    have hb : |(m : ℚ) / 2 ^ 53 * ((7074237752028440 : ℤ) / 2 ^ 50)| ≤ 7 := by
      rw [abs_of_nonneg (by positivity)]
      calc (m : ℚ) / 2 ^ 53 * ((7074237752028440 : ℤ) / 2 ^ 50) ≤ 1 * 7 := by
            refine mul_le_mul (u1.trans (by norm_num)) (by norm_num) (by norm_num) (by norm_num)
        _ = 7 := by norm_num
    have h := (unit_is hm).mul hP (small_le_HUGE (hb.trans (by norm_num)))
    rw [e] at h
    have hv := hX.unique h
    have er := RN_err' ((m : ℚ) / 2 ^ 53 * ((7074237752028440 : ℤ) / 2 ^ 50))
    rw [← hv, abs_of_nonneg (by positivity : (0 : ℚ) ≤ (m : ℚ) / 2 ^ 53 * ((7074237752028440 : ℤ) / 2 ^ 50))] at er
    obtain ⟨e1, e2⟩ := abs_le.mp er
    have m1 : (4644701696003 : ℚ) < m := by
      norm_num at e1 e2
      linarith
    have m2 : (m : ℚ) < 4644701696004 := by
      norm_num at e1 e2
      linarith
    have m1 : 4644701696003 < m := by exact_mod_cast m1
    have m2 : m < 4644701696004 := by exact_mod_cast m2
    omega

/-- What the printed tables need from the library: finite numbers, entries of matrices with exponents of two digits. -/
structure Computed (D : SofaData) : Prop where
  pom : ∀ d ∈ D.pom, ∀ i < 3, ∀ j < 3, isFin (d.2.2.2 i j) = true
  nut : ∀ d ∈ D.nut, isFin d.2.2.1 = true ∧ isFin d.2.2.2 = true
  numat : ∀ d ∈ D.numat, MatOk d.2.2.2
  bias : ∀ d ∈ D.bias, MatOk d.2.2.1 ∧ MatOk d.2.2.2.1 ∧ MatOk d.2.2.2.2
  era : ∀ d ∈ D.era, isFin d.2.2 = true
  pr : ∀ d ∈ D.pr, isFin d.2.2.1 = true ∧ isFin d.2.2.2 = true
  pnm : ∀ d ∈ D.pnm, MatOk d.2.2
  c2i : ∀ d ∈ D.c2i, MatOk d.2.2
  cio : ∀ d ∈ D.cio, MatOk d.2.2.2
  s00 : ∀ d ∈ D.s00, isFin d.2.2.2.2 = true
  c2t : ∀ d ∈ D.c2t, isFin d.1.2.2.2.1 = true ∧ isFin d.1.2.2.2.2.1 = true ∧ isFin d.1.2.2.2.2.2.2.1 = true ∧ isFin d.1.2.2.2.2.2.2.2 = true ∧ MatOk d.2

theorem Below.fin {x : F64} {a b : ℚ} (h : Below x a b) : isFin x = true := by obtain ⟨q, h, -⟩ := h; exact h.fin
theorem Within.fin {x : F64} {a b : ℚ} (h : Within x a b) : isFin x = true := by obtain ⟨q, h, -⟩ := h; exact h.fin

theorem unit_two {m : ℕ} (h : m < 2 ^ 53) : TwoDigitExp (unitDraw m) := by
  have hu := unit_is h
  refine ⟨hu.fin, ?_⟩
  rw [hu.val]
  rcases Nat.eq_zero_or_pos m with rfl | hp
  · left; simp
  · right
    have h1 : (1 : ℚ) ≤ m := by exact_mod_cast hp
    have : (1 : ℚ) / 2 ^ 53 ≤ m / 2 ^ 53 := by gcongr
    rw [abs_of_nonneg (by positivity)]
    have h2 := unit_lt h
    constructor
    · exact le_trans (by norm_num) this
    · exact h2.trans (by norm_num)

/-- **C102.** So the text of every run, for every stream of random bits, is a list of Rust constants with the values drawn and computed, if only the values that
the library computes are printable: no draw is unprintable. -/
theorem C102_every_run (L : SofaLib) (b : ℕ → ℕ) (hb : ∀ k, b k < 2 ^ 53) (h : Computed (sofaRun L fun k => unitDraw (b k))) :
    (sofaRun L fun k => unitDraw (b k)).Ok ∧ TestData (testSofa (sofaRun L fun k => unitDraw (b k))) (sofaRun L fun k => unitDraw (b k)).values := by
  have R := (C102_ranges L b hb).1
  have mat : ∀ k, MatOk (matDraw (fun k => unitDraw (b k)) k) := fun k i _ j _ => unit_two (hb _)
  have ok : (sofaRun L fun k => unitDraw (b k)).Ok := by
    refine ⟨?_, ?_, ?_, ?_, ?_, ?_, ?_, ?_, ?_, ?_, ?_⟩
    · intro d hd
      have r := R.pom d hd
      exact ⟨by rw [r.1.fin, r.2.1.fin, r.2.2.fin]; rfl, h.pom d hd⟩
    · intro d hd
      have r := R.nut d hd
      rw [r.1.fin, r.2.fin, (h.nut d hd).1, (h.nut d hd).2]; rfl
    · intro d hd
      have r := R.numat d hd
      exact ⟨by rw [r.1.fin, r.2.1.fin, r.2.2.fin]; rfl, h.numat d hd⟩
    · intro d hd
      have r := R.bias d hd
      exact ⟨by rw [r.1.fin, r.2.fin]; rfl, h.bias d hd⟩
    · intro d hd
      have r := R.era d hd
      rw [r.1.fin, r.2.fin, h.era d hd]; rfl
    · intro d hd
      have r := R.pr d hd
      rw [r.1.fin, r.2.fin, (h.pr d hd).1, (h.pr d hd).2]; rfl
    · intro d hd
      have r := R.pnm d hd
      exact ⟨by rw [r.1.fin, r.2.fin]; rfl, h.pnm d hd⟩
    · intro d hd
      have r := R.c2i d hd
      exact ⟨by rw [r.1.fin, r.2.fin]; rfl, h.c2i d hd⟩
    · intro d hd
      have r := R.cio d hd
      have c := h.cio d hd
      simp only [sofaRun, steps, List.mem_map] at hd
      obtain ⟨k, -, rfl⟩ := hd
      exact ⟨r.2.1.fin, mat _, mat _, c⟩
    · intro d hd
      have r := R.s00 d hd
      rw [r.1.fin, r.2.1.fin, r.2.2.1.fin, r.2.2.2.fin, h.s00 d hd]; rfl
    · intro d hd
      have r := R.c2t d hd
      obtain ⟨c1, c2, c3, c4, c5⟩ := h.c2t d hd
      exact ⟨by rw [r.1.fin, r.2.1.fin, r.2.2.1.fin, r.2.2.2.fin, c1, c2, c3, c4]; rfl, c5⟩
  exact ⟨ok, C95_test_data _ ok⟩

/-- A library whose values are all printable, and a stream that is not constant. -/
example : ∃ (L : SofaLib) (b : ℕ → ℕ), (∀ k, b k < 2 ^ 53) ∧ b 0 ≠ b 1 ∧ Computed (sofaRun L fun k => unitDraw (b k)) := by
  let z : F64 := lit 0
  have hz : Is z 0 := by have := Is.lit_int 0 (by norm_num); push_cast at this; exact this
  have hm : MatOk fun _ _ => z := fun i _ j _ => ⟨hz.fin, .inl hz.val⟩
  refine ⟨⟨fun _ _ _ _ _ => z, fun _ _ => (z, z), fun _ _ _ _ _ => z, fun _ _ => (fun _ _ => z, fun _ _ => z, fun _ _ => z), fun _ _ => z,
    fun _ _ => (z, z), fun _ _ _ _ => z, fun _ _ _ _ => z, fun _ _ _ _ _ => z, fun _ _ _ _ => z, fun _ _ _ => (z, z), fun _ _ _ => (z, z),
    fun _ _ _ _ _ _ _ _ => z⟩, fun k => k % 2, fun k => (Nat.mod_lt k (by norm_num)).trans (by norm_num), by norm_num, ?_⟩
  constructor
  all_goals
    intro d hd
    simp only [sofaRun, steps, List.mem_map] at hd
    obtain ⟨k, -, rfl⟩ := hd
  · exact fun i _ j _ => hz.fin
  · exact ⟨hz.fin, hz.fin⟩
  · exact hm
  · exact ⟨hm, hm, hm⟩
  · exact hz.fin
  · exact ⟨hz.fin, hz.fin⟩
  · exact hm
  · exact hm
  · exact hm
  · exact hz.fin
  · exact ⟨hz.fin, hz.fin, hz.fin, hz.fin, hm⟩

/-- The entries of a Fortran array in the order in which they are stored. -/
def FMat.stored (m : FMat) : List F64 := [m 0 0, m 1 0, m 2 0, m 0 1, m 1 1, m 2 1, m 0 2, m 1 2, m 2 2]

/-- The arguments in the tables that come from draws, table after table and row after row. -/
def SofaData.drawn (D : SofaData) : List F64 :=
  D.pom.flatMap (fun d => [d.1, d.2.1, d.2.2.1]) ++ D.nut.flatMap (fun d => [d.2.1]) ++ D.numat.flatMap (fun d => [d.1, d.2.1, d.2.2.1]) ++
  D.bias.flatMap (fun d => [d.1, d.2.1]) ++ D.era.flatMap (fun d => [d.2.1]) ++ D.pr.flatMap (fun d => [d.1, d.2.1]) ++
  D.pnm.flatMap (fun d => [d.1, d.2.1]) ++ D.c2i.flatMap (fun d => [d.1, d.2.1]) ++
  D.cio.flatMap (fun d => d.1.stored ++ d.2.1 :: d.2.2.1.stored) ++ D.s00.flatMap (fun d => [d.1, d.2.1, d.2.2.1, d.2.2.2.1]) ++
  D.c2t.flatMap (fun d => [d.1.1, d.1.2.1])

theorem flat_rows (c n : ℕ) (f : ℕ → F64) (g : ℕ → List F64) (h : ∀ k < n, g k = (List.range c).map fun j => f (c * k + j)) :
    (List.range n).flatMap g = (List.range (c * n)).map f := by
  induction n with
  | zero => simp
  | succ n ih =>
    rw [List.range_succ, List.flatMap_append, ih fun k hk => h k (by omega), Nat.mul_succ, List.range_add, List.map_append, List.map_map]
    simp [h n (by omega), Function.comp_def]

theorem part (a b : ℕ) (f g : ℕ → F64) (X Y : List F64) (hX : X = (List.range a).map f) (hY : Y = (List.range b).map g) (h : ∀ j < b, g j = f (a + j)) :
    X ++ Y = (List.range (a + b)).map f := by
  rw [hX, hY, List.range_add, List.map_append, List.map_map]
  congr 1
  refine List.map_congr_left fun j hj => h j (by simpa using hj)

/-- **C102.** Every draw is used, once and in the order in which it was made: as it is, scaled to a century of days or to a turn, or
added to a date. -/
theorem C102_each_draw_once (L : SofaLib) (u : ℕ → F64) : (sofaRun L u).drawn = (List.range 41000).map fun k =>
    if (3000 ≤ k ∧ k < 4000) ∨ (9000 ≤ k ∧ k < 10000) then u k *. lit 36525
    else if 4000 ≤ k ∧ k < 7000 then u k *. lit (13176795 / 2 ^ 21)
    else if 7000 ≤ k ∧ k < 9000 ∧ k % 2 = 0 then u k +. lit 2451545
    else if (10000 ≤ k ∧ k < 16000 ∧ k % 2 = 0) ∨ (35000 ≤ k ∧ k < 39000 ∧ k % 4 = 0) ∨ (39000 ≤ k ∧ k < 41000 ∧ k % 2 = 0) then
      lit 2451545 +. lit 36525 *. u k
    else u k := by
  set F : ℕ → F64 := _
  show _ = (List.range 41000).map F
  simp only [SofaData.drawn, sofaRun, steps, List.flatMap_map]
  have raw : ∀ k, (k < 3000 ∨ (7000 ≤ k ∧ k < 9000 ∧ k % 2 = 1) ∨ (10000 ≤ k ∧ k < 16000 ∧ k % 2 = 1) ∨ (16000 ≤ k ∧ k < 35000) ∨
      (35000 ≤ k ∧ k < 39000 ∧ k % 4 ≠ 0) ∨ (39000 ≤ k ∧ k % 2 = 1)) → u k = F k := fun k h => by
    show _ = ite _ _ _
    rw [if_neg (by omega), if_neg (by omega), if_neg (by omega), if_neg (by omega)]
  have day : ∀ k, (3000 ≤ k ∧ k < 4000) ∨ (9000 ≤ k ∧ k < 10000) → u k *. DJC_F = F k := fun k h => by
    show _ = ite _ _ _
    rw [if_pos h]; rfl
  have turn : ∀ k, 4000 ≤ k ∧ k < 7000 → u k *. TWO_PI_F = F k := fun k h => by
    show _ = ite _ _ _
    rw [if_neg (by omega), if_pos h]; rfl
  have next : ∀ k, 7000 ≤ k ∧ k < 9000 ∧ k % 2 = 0 → u k +. DJ00_F = F k := fun k h => by
    show _ = ite _ _ _
    rw [if_neg (by omega), if_neg (by omega), if_pos h]; rfl
  have date : ∀ k, (10000 ≤ k ∧ k < 16000 ∧ k % 2 = 0) ∨ (35000 ≤ k ∧ k < 39000 ∧ k % 4 = 0) ∨ (39000 ≤ k ∧ k < 41000 ∧ k % 2 = 0) →
      tt1Draw (u k) = F k := fun k h => by
    show _ = ite _ _ _
    rw [if_neg (by omega), if_neg (by omega), if_neg (by omega), if_pos h]; rfl
  clear_value F
  have pair : ∀ x y : F64, ∀ f : ℕ → F64, x = f 0 → y = f 1 → [x, y] = (List.range 2).map f := fun x y f h1 h2 => by rw [h1, h2]; rfl
  have triple : ∀ x y z : F64, ∀ f : ℕ → F64, x = f 0 → y = f 1 → z = f 2 → [x, y, z] = (List.range 3).map f := fun x y z f h1 h2 h3 => by
    rw [h1, h2, h3]; rfl
  refine part 39000 2000 F (fun j => F (39000 + j)) _ _ ?_ (flat_rows 2 1000 _ _ fun k hk => pair _ _ _ (date _ (by omega)) (raw _ (by omega))) fun _ _ => rfl
  refine part 35000 4000 F (fun j => F (35000 + j)) _ _ ?_ (flat_rows 4 1000 _ _ fun k hk => ?_) fun _ _ => rfl
  rotate_left
  · show [_, _, _, _] = [_, _, _, _]
    rw [date _ (by omega), raw _ (by omega), raw _ (by omega), raw _ (by omega)]; rfl
  refine part 16000 19000 F (fun j => F (16000 + j)) _ _ ?_ (flat_rows 19 1000 _ _ fun k hk => ?_) fun _ _ => rfl
  rotate_left
  · show [_, _, _, _, _, _, _, _, _, _, _, _, _, _, _, _, _, _, _] = [_, _, _, _, _, _, _, _, _, _, _, _, _, _, _, _, _, _, _]
    have h : ∀ j < 19, u (16000 + 19 * k + j) = F (16000 + (19 * k + j)) := fun j hj => by rw [raw _ (by omega), ← Nat.add_assoc]
    simp only [List.cons.injEq, and_true]
    exact ⟨h 0 (by omega), h 1 (by omega), h 2 (by omega), h 3 (by omega), h 4 (by omega), h 5 (by omega), h 6 (by omega), h 7 (by omega),
      h 8 (by omega), h 9 (by omega), h 10 (by omega), h 11 (by omega), h 12 (by omega), h 13 (by omega), h 14 (by omega), h 15 (by omega),
      h 16 (by omega), h 17 (by omega), h 18 (by omega)⟩
  refine part 14000 2000 F (fun j => F (14000 + j)) _ _ ?_ (flat_rows 2 1000 _ _ fun k hk => pair _ _ _ (date _ (by omega)) (raw _ (by omega))) fun _ _ => rfl
  refine part 12000 2000 F (fun j => F (12000 + j)) _ _ ?_ (flat_rows 2 1000 _ _ fun k hk => pair _ _ _ (date _ (by omega)) (raw _ (by omega))) fun _ _ => rfl
  refine part 10000 2000 F (fun j => F (10000 + j)) _ _ ?_ (flat_rows 2 1000 _ _ fun k hk => pair _ _ _ (date _ (by omega)) (raw _ (by omega))) fun _ _ => rfl
  refine part 9000 1000 F (fun j => F (9000 + j)) _ _ ?_ (flat_rows 1 1000 _ _ fun k hk => ?_) fun _ _ => rfl
  rotate_left
  · rw [day _ (by omega), Nat.one_mul]; rfl
  refine part 7000 2000 F (fun j => F (7000 + j)) _ _ ?_ (flat_rows 2 1000 _ _ fun k hk => pair _ _ _ (next _ (by omega)) (raw _ (by omega))) fun _ _ => rfl
  refine part 4000 3000 F (fun j => F (4000 + j)) _ _ ?_ (flat_rows 3 1000 _ _ fun k hk => triple _ _ _ _ (turn _ (by omega)) (turn _ (by omega)) (turn _ (by omega))) fun _ _ => rfl
  refine part 3000 1000 F (fun j => F (3000 + j)) _ _ (flat_rows 3 1000 _ _ fun k hk => triple _ _ _ _ (raw _ (by omega)) (raw _ (by omega)) (raw _ (by omega))) (flat_rows 1 1000 _ _ fun k hk => ?_) fun _ _ => rfl
  rw [day _ (by omega), Nat.one_mul]; rfl

/-- **C102.** The results in a row are the values of the library at the arguments in the row; the last table has no time offsets and
no polar motion. -/
theorem C102_rows (L : SofaLib) (u : ℕ → F64) : let D := sofaRun L u
    (∀ d ∈ D.pom, d.2.2.2 = L.pom d.1 d.2.1 d.2.2.1) ∧ (∀ d ∈ D.nut, d.1 = lit 2451545 ∧ d.2.2 = L.nut d.1 d.2.1) ∧
    (∀ d ∈ D.numat, d.2.2.2 = L.numat d.1 d.2.1 d.2.2.1) ∧ (∀ d ∈ D.bias, d.2.2 = L.bp d.1 d.2.1) ∧
    (∀ d ∈ D.era, d.1 = lit 2451545 ∧ d.2.2 = L.era d.1 d.2.1) ∧ (∀ d ∈ D.pr, d.2.2 = L.pr d.1 d.2.1) ∧ (∀ d ∈ D.pnm, d.2.2 = L.pnm d.1 d.2.1) ∧
    (∀ d ∈ D.c2i, d.2.2 = L.c2i d.1 d.2.1) ∧ (∀ d ∈ D.cio, d.2.2.2 = L.cio d.1 d.2.1 d.2.2.1) ∧
    (∀ d ∈ D.s00, d.2.2.2.2 = L.s00 d.1 d.2.1 d.2.2.1 d.2.2.2.1) ∧
    ∀ d ∈ D.c2t, d.1.2.2.1 = lit 0 ∧ (d.1.2.2.2.1, d.1.2.2.2.2.1) = L.tttdb d.1.1 d.1.2.1 (lit 0) ∧ d.1.2.2.2.2.2.1 = lit 0 ∧
      (d.1.2.2.2.2.2.2.1, d.1.2.2.2.2.2.2.2) = L.ttut1 d.1.1 d.1.2.1 (lit 0) ∧
      d.2 = L.c2t d.1.1 d.1.2.1 d.1.2.2.2.2.2.2.1 d.1.2.2.2.2.2.2.2 (lit 0) (lit 0) := by
  intro D
  refine ⟨?_, ?_, ?_, ?_, ?_, ?_, ?_, ?_, ?_, ?_, ?_⟩
  all_goals
    intro d hd
    simp only [D, sofaRun, steps, List.mem_map] at hd
    obtain ⟨k, -, rfl⟩ := hd
    first
    | with_reducible rfl
    | exact ⟨by unfold DJ00_F; with_reducible rfl, by with_reducible rfl⟩
    | exact ⟨by with_reducible rfl, by with_reducible rfl, by with_reducible rfl, by with_reducible rfl, by with_reducible rfl⟩

end Verif
