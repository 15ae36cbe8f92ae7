import Verif.Model.Earth
import Verif.Props.Common
import Verif.Float.Near
import Verif.Lemmas.FinF64
import Verif.Float.Mag

/-!
# Earth rotation angle: C32, C33
-/

namespace Verif
open Arith F64

/-- The argument of `anp` in `rotation_angle`. -/
theorem rotationAngle_eq {α : Type} [Arith α] (a b : α) : rotationAngle (a, b) =
    if a <. b then
      anp (TWO_PI *. ((((a %. lit 1) +. (b %. lit 1)) +. lit 0.7790572732640) +.
        lit 0.00273781191135448 *. (a +. (b -. DJ00))))
    else
      anp (TWO_PI *. ((((b %. lit 1) +. (a %. lit 1)) +. lit 0.7790572732640) +.
        lit 0.00273781191135448 *. (b +. (a -. DJ00)))) := by
  unfold rotationAngle
  split <;> rfl

/-- **C32.** In exact arithmetic the Earth rotation angle is the value in `[0, TWO_PI)` congruent to
`TWO_PI * (0.7790572732640 + 1.00273781191135448 * (UT1 - 2451545))`. -/
theorem C32_earth_rotation_angle (a b : ℝ) :
    0 ≤ rotationAngle (a, b) ∧ rotationAngle (a, b) < TWO_PI ∧
    ∃ k : ℤ, rotationAngle (a, b) =
      TWO_PI * (0.7790572732640 + 1.00273781191135448 * (a + b - 2451545)) + k * TWO_PI := by
  have key : ∀ a b : ℝ, 0 ≤ anp (TWO_PI *. ((((a %. lit 1) +. (b %. lit 1)) +. lit 0.7790572732640) +.
        lit 0.00273781191135448 *. (a +. (b -. DJ00)))) ∧
      anp (TWO_PI *. ((((a %. lit 1) +. (b %. lit 1)) +. lit 0.7790572732640) +.
        lit 0.00273781191135448 *. (a +. (b -. DJ00)))) < TWO_PI ∧
      ∃ k : ℤ, anp (TWO_PI *. ((((a %. lit 1) +. (b %. lit 1)) +. lit 0.7790572732640) +.
        lit 0.00273781191135448 *. (a +. (b -. DJ00)))) =
        TWO_PI * (0.7790572732640 + 1.00273781191135448 * (a + b - 2451545)) + k * TWO_PI := by
    intro a b
    obtain ⟨h1, h2, k, h3⟩ := C26_anp_exact (TWO_PI *. ((((a %. lit 1) +. (b %. lit 1)) +.
      lit 0.7790572732640) +. lit 0.00273781191135448 *. (a +. (b -. DJ00))))
    refine ⟨h1, h2, 2451545 - truncR a - truncR b - k, ?_⟩
    generalize anp (TWO_PI *. ((((a %. lit 1) +. (b %. lit 1)) +.
      lit 0.7790572732640) +. lit 0.00273781191135448 *. (a +. (b -. DJ00)))) = r at *
    simp only [lit_real, add_real, mul_real, sub_real, rem_real, DJ00] at h3
    push_cast at h3 ⊢
    simp only [div_one, one_mul] at h3
    linear_combination -h3
  rw [rotationAngle_eq]
  split
  · exact key a b
  · obtain ⟨h1, h2, k, h3⟩ := key b a
    exact ⟨h1, h2, k, by rw [h3]; ring⟩

/-- **C32.** It depends only on the total. -/
theorem C32_split_independent (a b a' b' : ℝ) (h : a + b = a' + b') :
    rotationAngle (a, b) = rotationAngle (a', b') := by
  obtain ⟨h1, h2, k, h3⟩ := C32_earth_rotation_angle a b
  obtain ⟨g1, g2, l, g3⟩ := C32_earth_rotation_angle a' b'
  refine turn_unique h1 h2 g1 g2 (k - l) ?_
  rw [h3, g3, h]; push_cast; ring

example : (2451545 : ℝ) + 0.25 = 2400000.5 + 51544.75 := by norm_num

/-- **C32.** One Earth rotation (`1/1.00273781191135448` days of UT1) later the angle is the same. -/
theorem C32_period (a b : ℝ) (n : ℤ) :
    rotationAngle (a, b + n / 1.00273781191135448) = rotationAngle (a, b) := by
  obtain ⟨h1, h2, k, h3⟩ := C32_earth_rotation_angle a (b + n / 1.00273781191135448)
  obtain ⟨g1, g2, l, g3⟩ := C32_earth_rotation_angle a b
  refine turn_unique h1 h2 g1 g2 (k - l + n) ?_
  rw [h3, g3]; push_cast; ring

/-! ## C33 -/

theorem zero_swap : ∀ s t : Bool,
    (F64.zero s : F64) +. (F64.zero t -. DJ00) = F64.zero t +. (F64.zero s -. DJ00) := by
  decide +kernel

theorem rep_zero : RepNat 0 ∧ 0 < OVN := by decide +kernel

theorem fin_zero_eq (s : Bool) (h) : F64.fin s 0 h = F64.zero s := by
  have key : ∀ s : Bool, F64.fin s 0 rep_zero = F64.zero s := by decide +kernel
  exact key s

/-- Days since J2000.0 do not depend on the order of two parts neither of which is less than the other. -/
theorem days_swap (a b : F64) (h1 : (a <. b) = false) (h2 : (b <. a) = false) :
    b +. (a -. DJ00) = a +. (b -. DJ00) := by
  have key : ∀ (a b : F64), F64.lt a b = false → F64.lt b a = false →
      F64.add b (F64.sub a DJ00) = F64.add a (F64.sub b DJ00) := by
    intro a b h1 h2
    match a, b with
    | .nan, .nan => rfl
    | .nan, .inf _ => rfl
    | .nan, .fin _ _ _ => rfl
    | .inf _, .nan => rfl
    | .fin _ _ _, .nan => rfl
    | .inf s, .inf t =>
      have : s = t := by
        simp only [F64.lt] at h1 h2
        revert h1 h2; cases s <;> cases t <;> decide
      rw [this]
    | .inf s, .fin _ _ _ => simp only [F64.lt] at h1 h2; rw [h1] at h2; cases h2
    | .fin _ _ _, .inf s => simp only [F64.lt] at h1 h2; rw [h2] at h1; cases h1
    | .fin s n h, .fin t m h' =>
      simp only [F64.lt, decide_eq_false_iff_not, not_lt] at h1 h2
      have he : sval s n = sval t m := le_antisymm h2 h1
      have hnm : n = m ∧ (n = 0 ∨ s = t) := by
        unfold sval at he
        revert he
        cases s <;> cases t <;> simp <;> omega
      obtain ⟨rfl, h0 | rfl⟩ := hnm
      · subst h0
        rw [fin_zero_eq, fin_zero_eq]
        exact zero_swap t s
      · rfl
  exact key a b h1 h2

/-- **C33.** The `f64` result does not depend on the order of the two parts: equal bit for bit for all
pairs of `f64` (infinities and NaN included). -/
theorem C33_rotation_angle_comm (a b : F64) : rotationAngle (a, b) = rotationAngle (b, a) := by
  rw [rotationAngle_eq, rotationAngle_eq]
  by_cases h1 : (a <. b) = true
  · have h2 : ¬ (b <. a) = true := by
      intro h2
      have key : ∀ a b : F64, F64.lt a b = true → F64.lt b a = true → False := by
        intro a b
        match a, b with
        | .nan, _ => intro h; cases h
        | .inf _, .nan => intro h; cases h
        | .fin _ _ _, .nan => intro h; cases h
        | .inf s, .inf t => simp only [F64.lt]; cases s <;> cases t <;> decide
        | .inf s, .fin _ _ _ => simp only [F64.lt]; cases s <;> decide
        | .fin _ _ _, .inf s => simp only [F64.lt]; cases s <;> decide
        | .fin _ _ _, .fin _ _ _ =>
          simp only [F64.lt, decide_eq_true_eq]; intro h h'; omega
      exact key a b h1 h2
    rw [if_pos h1, if_neg h2]
  · by_cases h2 : (b <. a) = true
    · rw [if_neg h1, if_pos h2]
    · rw [if_neg h1, if_neg h2, days_swap a b (Bool.eq_false_iff.mpr h1) (Bool.eq_false_iff.mpr h2),
        fadd_comm (b %. lit 1)]

example : rotationAngle ((lit 2451545 : F64), lit 0.25) = rotationAngle ((lit 0.25 : F64), lit 2451545) :=
  C33_rotation_angle_comm _ _

/-! ## C33, C57: range and accuracy -/

theorem lit1_is : Is (lit 1 : F64) 1 := by
  have := Is.lit_int 1 (by norm_num); push_cast at this; exact this

theorem dj00_is : Is (DJ00 : F64) 2451545 := by
  have := Is.lit_int 2451545 (by norm_num); push_cast at this; exact this

theorem two_pi_near : Near (TWO_PI : F64) TWO_PI (8 / 10 ^ 16) :=
  (Near.lit 6.283185307179586476925287 (M := 7) (by norm_num) (by norm_num)).mono (by norm_num)

/-- The rounded argument of `anp`. -/
theorem era_arg (x y : F64) (a b : ℚ) (hx : Is x a) (hy : Is y b) (ha : |a| ≤ 4000000)
    (hb : |b| ≤ 4000000) :
    ∃ k : ℤ, Near (TWO_PI *. ((((x %. lit 1) +. (y %. lit 1)) +. lit 0.7790572732640) +.
        lit 0.00273781191135448 *. (x +. (y -. DJ00))))
      (TWO_PI * (0.7790572732640 + 1.00273781191135448 * (a + b - 2451545)) + k * TWO_PI)
      (15 / 10 ^ 11) ∧
      |(TWO_PI * (0.7790572732640 + 1.00273781191135448 * (a + b - 2451545)) + k * TWO_PI : ℝ)|
        ≤ 190000 := by
  have hr1 := hx.rem lit1_is one_ne_zero
  have hr2 := hy.rem lit1_is one_ne_zero
  obtain ⟨m1, _, _⟩ := remQ_bound a 1 one_pos
  obtain ⟨m2, _, _⟩ := remQ_bound b 1 one_pos
  rw [div_one, one_mul] at hr1 hr2 m1 m2
  set u := truncQ a
  set w := truncQ b
  have ra := (Rat.cast_le (K := ℝ)).mpr ha
  have rb := (Rat.cast_le (K := ℝ)).mpr hb
  have r1 := (Rat.cast_lt (K := ℝ)).mpr m1
  have r2 := (Rat.cast_lt (K := ℝ)).mpr m2
  push_cast at ra rb r1 r2
  rw [abs_le] at ra rb
  rw [abs_lt] at r1 r2
  have f1 := ((Near.of_is hr1).add (Near.of_is hr2) (M := 2)
    (by push_cast; rw [add_zero, add_zero, abs_le]; constructor <;> linarith) (by norm_num)).mono
    (show _ ≤ (3 / 10 ^ 16 : ℝ) by norm_num)
  have c1 := (Near.lit 0.7790572732640 (M := 1) (by norm_num) (by norm_num)).mono
    (show _ ≤ (2 / 10 ^ 16 : ℝ) by norm_num)
  have f2 := (f1.add c1 (M := 3) (by
    push_cast
    have : |((a : ℝ) - u + (b - w) + 0.7790572732640)| ≤ 2.78 := by
      rw [abs_le]; constructor <;> linarith
    linarith) (by norm_num)).mono (show _ ≤ (9 / 10 ^ 16 : ℝ) by norm_num)
  have t1 := ((Near.of_is hy).sub (Near.of_is dj00_is) (M := 6451545) (by
    push_cast; rw [add_zero, add_zero, abs_le]; constructor <;> linarith) (by norm_num)).mono
    (show _ ≤ (72 / 10 ^ 11 : ℝ) by norm_num)
  have t2 := ((Near.of_is hx).add t1 (M := 10451546) (by
    push_cast
    have : |(a : ℝ) + (b - 2451545)| ≤ 10451545 := by rw [abs_le]; constructor <;> linarith
    linarith) (by norm_num)).mono (show _ ≤ (189 / 10 ^ 11 : ℝ) by norm_num)
  have c2 := (Near.lit 0.00273781191135448 (M := 0.00273781191135448) (by norm_num) (by norm_num)).mono
    (show _ ≤ (31 / 10 ^ 20 : ℝ) by norm_num)
  have t3 := (c2.mul t2 (A := 0.00273781191135448) (B := 10451545) (d := 85 / 10 ^ 13) (M := 28615)
    (by norm_num) (by push_cast; rw [abs_le]; constructor <;> linarith) (by norm_num)
    (by norm_num) (by norm_num)).mono (show _ ≤ (117 / 10 ^ 13 : ℝ) by norm_num)
  have bnd : |((a : ℝ) - u + (b - w) + 0.7790572732640)
      + 0.00273781191135448 * (a + (b - 2451545))| ≤ 28617.2 := by
    rw [abs_le]; constructor <;> linarith
  have s1 := (f2.add t3 (M := 28618) (by push_cast; linarith) (by norm_num)).mono
    (show _ ≤ (149 / 10 ^ 13 : ℝ) by norm_num)
  have pp : |(TWO_PI : ℝ)| ≤ 6.2831854 := by unfold TWO_PI; norm_num
  have s2 := (two_pi_near.mul s1 (A := 6.2831854) (B := 28617.2) (d := 117 / 10 ^ 12) (M := 179808)
    pp (by push_cast; exact bnd) (by norm_num) (by norm_num) (by norm_num)).mono
    (show _ ≤ (15 / 10 ^ 11 : ℝ) by norm_num)
  have e : (TWO_PI : ℝ) * (0.7790572732640 + 1.00273781191135448 * (a + b - 2451545))
      + ((2451545 - u - w : ℤ) : ℝ) * TWO_PI = TWO_PI * (((a : ℝ) - u + (b - w) + 0.7790572732640)
      + 0.00273781191135448 * (a + (b - 2451545))) := by push_cast; ring
  refine ⟨2451545 - u - w, s2.congr ?_, ?_⟩
  · rw [e]; push_cast; rfl
  · rw [e, abs_mul]
    exact (mul_le_mul pp bnd (abs_nonneg _) (by norm_num)).trans (by norm_num)

/-- **C57.** For all `f64` parts of magnitude up to four million days (every split of any civil date) the
`f64` Earth rotation angle is finite, in the closed interval `[0, TWO_PI]`, and equals the defining formula
modulo whole turns with an error below `2e-10` rad. -/
theorem C57_rotation_angle_accuracy (x y : F64) (a b : ℚ) (hx : Is x a) (hy : Is y b)
    (ha : |a| ≤ 4000000) (hb : |b| ≤ 4000000) :
    ∃ r t : ℚ, Is (rotationAngle (x, y)) r ∧ Is (TWO_PI : F64) t ∧ 0 ≤ r ∧ r ≤ t ∧
      ∃ k : ℤ, |(r : ℝ) - (TWO_PI * (0.7790572732640 + 1.00273781191135448 * (a + b - 2451545))
        + k * TWO_PI)| ≤ 2 / 10 ^ 10 := by
  have key : ∀ (x y : F64) (a b : ℚ), Is x a → Is y b → |a| ≤ 4000000 → |b| ≤ 4000000 →
      ∃ r t : ℚ, Is (anp (TWO_PI *. ((((x %. lit 1) +. (y %. lit 1)) +. lit 0.7790572732640) +.
        lit 0.00273781191135448 *. (x +. (y -. DJ00))))) r ∧ Is (TWO_PI : F64) t ∧ 0 ≤ r ∧ r ≤ t ∧
      ∃ k : ℤ, |(r : ℝ) - (TWO_PI * (0.7790572732640 + 1.00273781191135448 * (a + b - 2451545))
        + k * TWO_PI)| ≤ 2 / 10 ^ 10 := by
    intro x y a b hx hy ha hb
    obtain ⟨k, hn, hM⟩ := era_arg x y a b hx hy ha hb
    obtain ⟨s, hs, hs'⟩ := hn
    obtain ⟨r, t, hr, ht, r0, r1, l, hl⟩ := C26_anp_f64_partial _ s hs
    refine ⟨r, t, hr, ht, r0, r1, k - l, ?_⟩
    have htn := two_pi_near.v_le
    rw [ht.val] at htn
    generalize (TWO_PI * (0.7790572732640 + 1.00273781191135448 * (a + b - 2451545)) : ℝ) = E at *
    have hl' : |(r : ℝ) - (s - l * t)| ≤ 1 / 2 ^ 50 := by
      have := (Rat.cast_le (K := ℝ)).mpr hl
      push_cast at this
      exact this
    have r0' : (0 : ℝ) ≤ r := by exact_mod_cast r0
    have r1' : (r : ℝ) ≤ t := by exact_mod_cast r1
    set P : ℝ := TWO_PI with hP
    have p1 : (6.28 : ℝ) < P := by rw [hP]; unfold TWO_PI; norm_num
    have p2 : P < 6.29 := by rw [hP]; unfold TWO_PI; norm_num
    have tt := abs_le.mp htn
    have h1 := abs_le.mp hl'
    have h2 := abs_le.mp hs'
    have h3 := abs_le.mp hM
    -- the number of turns removed is at most 31000
    have t1 : (6.28 : ℝ) < t := by
      by_contra hc
      push Not at hc
      have : P ≤ 6.28 + 8 / 10 ^ 16 := by linarith
      rw [hP] at this; unfold TWO_PI at this; norm_num at this
    have hlt : |(l : ℝ) * t| ≤ 190010 := by
      rw [abs_le]
      have : (1 : ℝ) / 2 ^ 50 ≤ 1 := by norm_num
      constructor <;> norm_num at h2 ⊢ <;> linarith
    have hl31 : |(l : ℝ)| ≤ 31000 := by
      rw [abs_mul, abs_of_pos (by linarith : (0 : ℝ) < t)] at hlt
      nlinarith [abs_nonneg (l : ℝ)]
    have hd : |(l : ℝ) * (t - P)| ≤ 31000 * (8 / 10 ^ 16) := by
      rw [abs_mul]
      exact mul_le_mul hl31 htn (abs_nonneg _) (by norm_num)
    have e : (r : ℝ) - (E + ((k - l : ℤ) : ℝ) * P)
        = (r - (s - l * t)) + (s - (E + k * P)) + (-(l * (t - P))) := by push_cast; ring
    rw [e]
    refine (abs_add_le _ _).trans ?_
    rw [abs_neg]
    refine (add_le_add_left (abs_add_le _ _) _).trans ?_
    refine (add_le_add (add_le_add hl' hs') hd).trans ?_
    norm_num
  rw [rotationAngle_eq]
  split
  · exact key x y a b hx hy ha hb
  · obtain ⟨r, t, h1, h2, h3, h4, k, h5⟩ := key y x b a hy hx hb ha
    exact ⟨r, t, h1, h2, h3, h4, k, by rw [add_comm (a : ℝ)]; exact h5⟩

/-- A date and a fraction of a day. -/
example : ∃ x y : F64, Is x (2451545 : ℤ) ∧ Is y (7300 : ℤ) ∧ |((2451545 : ℤ) : ℚ)| ≤ 4000000 ∧ |((7300 : ℤ) : ℚ)| ≤ 4000000 :=
  ⟨Arith.ofInt 2451545, Arith.ofInt 7300, Is.ofInt _ (by norm_num), Is.ofInt _ (by norm_num), by norm_num, by norm_num⟩

theorem not_fin_cases {x : F64} (h : isFin x = false) : x = .nan ∨ ∃ s, x = .inf s := by
  cases x with
  | nan => exact .inl rfl
  | inf s => exact .inr ⟨s, rfl⟩
  | fin s n h' => cases h

theorem anp_not_fin {x : F64} (h : isFin x = false) : anp x = .nan := by
  rcases not_fin_cases h with rfl | ⟨s, rfl⟩
  · decide +kernel
  · revert s; decide +kernel

/-- **C33.** For every pair of `f64` (infinities and NaN included) the result is NaN or lies in the closed
interval `[0, TWO_PI]` (the upper end can be attained, as in C26). -/
theorem C33_rotation_angle_range (x y : F64) :
    rotationAngle (x, y) = .nan ∨
    ∃ r t : ℚ, Is (rotationAngle (x, y)) r ∧ Is (TWO_PI : F64) t ∧ 0 ≤ r ∧ r ≤ t := by
  have key : ∀ z : F64, anp z = .nan ∨
      ∃ r t : ℚ, Is (anp z) r ∧ Is (TWO_PI : F64) t ∧ 0 ≤ r ∧ r ≤ t := by
    intro z
    rcases hz : isFin z with _ | _
    · exact .inl (anp_not_fin hz)
    · obtain ⟨r, t, h1, h2, h3, h4, _⟩ := C26_anp_f64_partial z z.v (.self hz)
      exact .inr ⟨r, t, h1, h2, h3, h4⟩
  rw [rotationAngle_eq]
  split <;> exact key _

/-- **C33.** The result is not NaN when the parts are finite with magnitude up to `2 ^ 1000`. -/
theorem C33_rotation_angle_finite (x y : F64) (a b : ℚ) (hx : Is x a) (hy : Is y b)
    (ha : |a| ≤ 2 ^ 1000) (hb : |b| ≤ 2 ^ 1000) :
    ∃ r t : ℚ, Is (rotationAngle (x, y)) r ∧ Is (TWO_PI : F64) t ∧ 0 ≤ r ∧ r ≤ t := by
  have rm : ∀ (z : F64) (c : ℚ), Is z c → Mag (z %. lit 1) 0 := by
    intro z c hz
    obtain ⟨m, _⟩ := remQ_bound c 1 one_pos
    exact ⟨_, hz.rem lit1_is one_ne_zero, by simpa using m.le⟩
  have key : ∀ (x y : F64) (a b : ℚ), Is x a → Is y b → |a| ≤ 2 ^ 1000 → |b| ≤ 2 ^ 1000 →
      isFin (TWO_PI *. ((((x %. lit 1) +. (y %. lit 1)) +. lit 0.7790572732640) +.
        lit 0.00273781191135448 *. (x +. (y -. DJ00)))) = true := by
    intro x y a b hx hy ha hb
    have f : Mag (((x %. lit 1) +. (y %. lit 1)) +. lit 0.7790572732640) 2 :=
      ((rm x a hx).add (rm y b hy) (by norm_num)).add (Mag.lit _ (by norm_num) (by norm_num))
        (by norm_num)
    have dj : Mag (DJ00 : F64) 22 := ⟨_, dj00_is, by norm_num⟩
    have t : Mag (x +. (y -. DJ00)) 1002 :=
      Mag.add (Mag.mono ⟨a, hx, ha⟩ (by norm_num))
        (Mag.sub (⟨b, hy, hb⟩ : Mag y 1000) (dj.mono (by norm_num)) (by norm_num)) (by norm_num)
    have m : Mag (lit 0.00273781191135448 *. (x +. (y -. DJ00))) 1002 :=
      ((Mag.lit (k := 0) 0.00273781191135448 (by norm_num) (by norm_num)).mul t (by norm_num)).mono
        (by norm_num)
    have p : Mag (TWO_PI : F64) 3 := Mag.lit _ (by norm_num) (by norm_num)
    exact (p.mul ((f.mono (by norm_num)).add m (by norm_num)) (by norm_num)).isFin
  rw [rotationAngle_eq]
  split
  · obtain ⟨r, t, h1, h2, h3, h4, _⟩ := C26_anp_f64_partial _ _ (.self (key x y a b hx hy ha hb))
    exact ⟨r, t, h1, h2, h3, h4⟩
  · obtain ⟨r, t, h1, h2, h3, h4, _⟩ := C26_anp_f64_partial _ _ (.self (key y x b a hy hx hb ha))
    exact ⟨r, t, h1, h2, h3, h4⟩

example : Is (lit 2451545 : F64) 2451545 ∧ |(2451545 : ℚ)| ≤ 2 ^ 1000 := by
  refine ⟨by have := Is.lit_int 2451545 (by norm_num); push_cast at this; exact this, ?_⟩
  rw [abs_of_pos (by norm_num)]
  exact le_trans (by norm_num : (2451545 : ℚ) ≤ 2 ^ 22) (pow_le_pow_right₀ (by norm_num) (by norm_num))

-- a modern date: 2400000.5 + 54388
example : Is (lit 54388 : F64) 54388 ∧ |(54388 : ℚ)| ≤ 4000000 := by
  refine ⟨?_, by norm_num⟩
  have := Is.lit_int 54388 (by norm_num); push_cast at this; exact this

end Verif
