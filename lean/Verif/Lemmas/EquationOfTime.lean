import Verif.Lemmas.MeanSunSky
import Verif.Spec.EquationOfTime

/-!
# The mean Sun at mean noon
-/

namespace Verif
open Matrix Spec

/-- Eastward component of the Sun at mean noon, for the longitude from the equinox of date with sine `s` and cosine `c`. -/
noncomputable def eotF (s c : ℝ) : ℝ :=
  -(0.082518 * (s * c)) + 0.008355615 * (0.67164 * s + 3 * 0.917482 * 0.97451 * c +
    (-0.22388 * (c ^ 2 - s ^ 2) + 0.97451 * (2 * s * c)) * s - 0.917482 * (-0.22388 * (2 * s * c) - 0.97451 * (c ^ 2 - s ^ 2)) * c)

/-- Component away from the axis. -/
noncomputable def eotG (s c : ℝ) : ℝ :=
  1 - 0.082518 * s ^ 2 + 0.008355615 * ((-0.67164 - (-0.22388 * (c ^ 2 - s ^ 2) + 0.97451 * (2 * s * c))) * c +
    0.917482 * (3 * 0.97451 - (-0.22388 * (2 * s * c) - 0.97451 * (c ^ 2 - s ^ 2))) * s)

theorem abs_mul_le {a b A B : ℝ} (h : |a| ≤ A) (h' : |b| ≤ B) : |a * b| ≤ A * B := by
  rw [abs_mul]; exact mul_le_mul h h' (abs_nonneg _) ((abs_nonneg _).trans h)

theorem cos_sq {x e : ℝ} (h : |x| ≤ e) : |1 - Real.cos x| ≤ e ^ 2 / 2 := by
  have h1 := Real.one_sub_sq_div_two_le_cos (x := x)
  have h2 := Real.cos_le_one x
  have h3 : x ^ 2 ≤ e ^ 2 := sq_le_sq' (by linarith [(abs_le.mp h).1]) (abs_le.mp h).2
  rw [abs_le]; constructor <;> linarith

theorem sin_cube' {x : ℝ} (h : |x| ≤ 0.047) : |Real.sin x - x| ≤ 2e-5 := by
  have hs := Real.sin_bound (h.trans (by norm_num))
  have h3 : |x| ^ 3 ≤ 0.047 ^ 3 := by gcongr
  have h5 : |x| ^ 5 ≤ 0.047 ^ 5 := by gcongr
  have e : |x ^ 3| = |x| ^ 3 := abs_pow _ _
  have h6 : |x ^ 3| ≤ 0.047 ^ 3 := by rw [e]; exact h3
  rw [abs_le] at hs h6 ⊢
  norm_num at *
  constructor <;> linarith

/-- The part without the eccentricity. -/
theorem noon_lead {w q η p so co T a b : ℝ} (hT : |T| ≤ 1) (hq : q = 0.0244287 * T) (hη : |η - 0.002031085 * T| ≤ 7e-5)
    (hp : |p - 0.0097171735 * T| ≤ 1e-9) (hso : |so - 0.397777| ≤ 5e-7) (hco : |co - 0.917482| ≤ 5e-7)
    (ha : a = w - q + η) (hb : b = w - q) :
    |(-(Real.sin a * Real.cos b) + co * (Real.cos a * Real.sin b) + p * so * (Real.sin a * Real.sin b)) -
      -(0.082518 * (Real.sin w * Real.cos w))| ≤ 2.5e-4 ∧
    |(Real.cos a * Real.cos b + co * (Real.sin a * Real.sin b) - p * so * (Real.cos a * Real.sin b)) -
      (1 - 0.082518 * Real.sin w ^ 2)| ≤ 0.004 := by
  obtain ⟨Q, hQ⟩ : ∃ Q, Q = 2 * q - η := ⟨_, rfl⟩
  have eab : a + b = 2 * w - Q := by rw [ha, hb, hQ]; ring
  have edf : a - b = η := by rw [ha, hb]; ring
  obtain ⟨K, hK⟩ : ∃ K, K = p * so / 2 := ⟨_, rfl⟩
  obtain ⟨ε, hε⟩ : ∃ ε, ε = co - 0.917482 := ⟨_, rfl⟩
  rw [← hε] at hco
  have hKT : |K - 0.0019326341 * T| ≤ 3e-9 := by
    have h1 : |(p - 0.0097171735 * T) * so| ≤ 1e-9 * 0.4 := abs_mul_le hp (by rw [abs_le] at hso ⊢; norm_num at hso ⊢; constructor <;> linarith [hso.1, hso.2])
    have h2 : |T * (so - 0.397777)| ≤ 1 * 5e-7 := abs_mul_le hT hso
    have e : K - 0.0019326341 * T = (p - 0.0097171735 * T) * so / 2 + 0.0097171735 * (T * (so - 0.397777)) / 2 +
      (0.0097171735 * 0.397777 / 2 - 0.0019326341) * T := by rw [hK]; ring
    rw [e]
    rw [abs_le] at h1 h2 hT ⊢
    norm_num at *
    constructor <;> linarith [h1.1, h1.2, h2.1, h2.2, hT.1, hT.2]
  have bQ : |Q| ≤ 0.047 := by
    rw [hQ, hq]; rw [abs_le] at hη hT ⊢; norm_num at *; constructor <;> linarith [hη.1, hη.2, hT.1, hT.2]
  have bη : |η| ≤ 0.0022 := by
    rw [abs_le] at hη hT ⊢; norm_num at *; constructor <;> linarith [hη.1, hη.2, hT.1, hT.2]
  have bK : |K| ≤ 0.00194 := by
    rw [abs_le] at hKT hT ⊢; norm_num at *; constructor <;> linarith [hKT.1, hKT.2, hT.1, hT.2]
  have cQ := cos_sq bQ
  have sQ := sin_cube' bQ
  have cη := cos_sq bη
  have sη := sin_cube (bη.trans (by norm_num))
  have sη' : |Real.sin η - η| ≤ 2e-9 := by
    have hs := Real.sin_bound (bη.trans (by norm_num))
    have h3 : |η| ^ 3 ≤ 0.0022 ^ 3 := by gcongr
    have h5 : |η| ^ 5 ≤ 0.0022 ^ 5 := by gcongr
    have e : |η ^ 3| = |η| ^ 3 := abs_pow _ _
    have h6 : |η ^ 3| ≤ 0.0022 ^ 3 := by rw [e]; exact h3
    rw [abs_le] at hs h6 ⊢
    norm_num at *
    constructor <;> linarith
  have S1 := Real.abs_sin_le_one (2 * w)
  have C1 := Real.abs_cos_le_one (2 * w)
  have u1 := Real.abs_sin_le_one (2 * w - Q)
  have u2 := Real.abs_sin_le_one η
  have u3 := Real.abs_cos_le_one (2 * w - Q)
  have u4 := Real.abs_cos_le_one η
  have s2 : Real.sin w * Real.cos w = Real.sin (2 * w) / 2 := by rw [Real.sin_two_mul]; ring
  have c2 : Real.sin w ^ 2 = (1 - Real.cos (2 * w)) / 2 := by
    have := Real.sin_sq_add_cos_sq w
    rw [Real.cos_two_mul]; linarith
  have dm : |Real.cos (2 * w - Q) - Real.cos (2 * w)| ≤ 0.047 := cos_near _ _ _ (by rw [sub_sub_cancel_left, abs_neg]; exact bQ)
  constructor
  · have e : (-(Real.sin a * Real.cos b) + co * (Real.cos a * Real.sin b) + p * so * (Real.sin a * Real.sin b)) -
        -(0.082518 * (Real.sin w * Real.cos w)) =
        0.041259 * (Real.sin (2 * w) * (1 - Real.cos Q)) +
        Real.cos (2 * w) * (0.041259 * (Real.sin Q - Q) + K * (1 - Real.cos Q) + (0.041259 * Q - K)) -
        0.958741 * (Real.sin η - η) - K * (1 - Real.cos η) + (K - 0.958741 * η) - K * (Real.sin (2 * w) * Real.sin Q) +
        ε / 2 * (Real.sin (2 * w - Q) - Real.sin η) := by
      rw [s2]
      have h1 : -(Real.sin a * Real.cos b) + co * (Real.cos a * Real.sin b) + p * so * (Real.sin a * Real.sin b) =
          -(0.041259 - ε / 2) * Real.sin (a + b) - (0.958741 + ε / 2) * Real.sin (a - b) + K * (Real.cos (a - b) - Real.cos (a + b)) := by
        rw [Real.sin_add, Real.sin_sub, Real.cos_add, Real.cos_sub, hK, hε]; ring
      rw [h1, eab, edf]
      simp only [Real.sin_sub, Real.cos_sub]
      ring
    rw [e]
    have b1 := abs_mul_le S1 cQ
    have b2 : |0.041259 * (Real.sin Q - Q) + K * (1 - Real.cos Q) + (0.041259 * Q - K)| ≤ 1e-5 := by
      have k1 := abs_mul_le bK cQ
      have k2 : |0.041259 * Q - K| ≤ 5e-6 := by
        rw [hQ, hq]
        rw [abs_le] at hη hT hKT ⊢; norm_num at *; constructor <;> linarith [hη.1, hη.2, hT.1, hT.2, hKT.1, hKT.2]
      generalize K * (1 - Real.cos Q) = z1 at *
      generalize Real.sin Q - Q = z2 at *
      generalize 0.041259 * Q - K = z3 at *
      clear * - k1 k2 sQ
      rw [abs_le] at *
      norm_num at *
      constructor <;> linarith [k1.1, k1.2, k2.1, k2.2, sQ.1, sQ.2]
    have b2' := abs_mul_le C1 b2
    have b3 := abs_mul_le bK cη
    have b4 : |K - 0.958741 * η| ≤ 8.5e-5 := by
      rw [abs_le] at hη hT hKT ⊢; norm_num at *; constructor <;> linarith [hη.1, hη.2, hT.1, hT.2, hKT.1, hKT.2]
    have b5 := abs_mul_le bK (abs_mul_le S1 (le_trans Real.abs_sin_le_abs bQ))
    have b6 : |ε / 2 * (Real.sin (2 * w - Q) - Real.sin η)| ≤ 5e-7 / 2 * 2 :=
      abs_mul_le (by rw [abs_div, abs_two]; linarith) ((abs_sub _ _).trans (by linarith))
    generalize Real.sin (2 * w) * (1 - Real.cos Q) = z1 at *
    generalize Real.cos (2 * w) * (0.041259 * (Real.sin Q - Q) + K * (1 - Real.cos Q) + (0.041259 * Q - K)) = z2 at *
    generalize K * (Real.sin (2 * w) * Real.sin Q) = z5 at *
    generalize ε / 2 * (Real.sin (2 * w - Q) - Real.sin η) = z6 at *
    generalize Real.sin η - η = z3 at *
    generalize K * (1 - Real.cos η) = z4 at *
    generalize K - 0.958741 * η = z7 at *
    clear * - b1 b2' b3 b4 b5 b6 sη'
    rw [abs_le] at *
    norm_num at *
    constructor <;> linarith [b1.1, b1.2, b2'.1, b2'.2, b3.1, b3.2, b4.1, b4.2, b5.1, b5.2, b6.1, b6.2, sη'.1, sη'.2]
  · have e : (Real.cos a * Real.cos b + co * (Real.sin a * Real.sin b) - p * so * (Real.cos a * Real.sin b)) -
        (1 - 0.082518 * Real.sin w ^ 2) = -(0.958741 * (1 - Real.cos η)) + 0.041259 * (Real.cos (2 * w - Q) - Real.cos (2 * w)) -
        K * (Real.sin (2 * w - Q) - Real.sin η) + ε / 2 * (Real.cos η - Real.cos (2 * w - Q)) := by
      rw [c2]
      have h1 : Real.cos a * Real.cos b + co * (Real.sin a * Real.sin b) - p * so * (Real.cos a * Real.sin b) =
          (0.958741 + ε / 2) * Real.cos (a - b) + (0.041259 - ε / 2) * Real.cos (a + b) - K * (Real.sin (a + b) - Real.sin (a - b)) := by
        rw [Real.sin_add, Real.sin_sub, Real.cos_add, Real.cos_sub, hK, hε]; ring
      rw [h1, eab, edf]
      ring
    rw [e]
    have b1 : |K * (Real.sin (2 * w - Q) - Real.sin η)| ≤ 0.00194 * (1 + 0.0022) :=
      abs_mul_le bK ((abs_sub _ _).trans (add_le_add u1 (le_trans Real.abs_sin_le_abs bη)))
    have b2 : |ε / 2 * (Real.cos η - Real.cos (2 * w - Q))| ≤ 5e-7 / 2 * 2 :=
      abs_mul_le (by rw [abs_div, abs_two]; linarith) ((abs_sub _ _).trans (by linarith))
    generalize K * (Real.sin (2 * w - Q) - Real.sin η) = z1 at *
    generalize ε / 2 * (Real.cos η - Real.cos (2 * w - Q)) = z2 at *
    generalize Real.cos (2 * w - Q) - Real.cos (2 * w) = z3 at *
    generalize 1 - Real.cos η = z4 at *
    clear * - b1 b2 dm cη
    rw [abs_le] at *
    norm_num at *
    constructor <;> linarith [b1.1, b1.2, b2.1, b2.2, dm.1, dm.2, cη.1, cη.2]

/-- The numbers for the perihelion and the obliquity in the terms of the eccentricity. -/
theorem noon_ecc_numbers {s c cP sP co : ℝ} (h : s ^ 2 + c ^ 2 = 1) (hc : |cP + 0.22388| ≤ 1e-4) (hs : |sP - 0.97451| ≤ 1.5e-4)
    (hco : |co - 0.917482| ≤ 5e-7) :
    |(-3 * cP * s + 3 * co * sP * c + (cP * (c ^ 2 - s ^ 2) + sP * (2 * s * c)) * s - co * (cP * (2 * s * c) - sP * (c ^ 2 - s ^ 2)) * c) -
      (0.67164 * s + 3 * 0.917482 * 0.97451 * c + (-0.22388 * (c ^ 2 - s ^ 2) + 0.97451 * (2 * s * c)) * s -
        0.917482 * (-0.22388 * (2 * s * c) - 0.97451 * (c ^ 2 - s ^ 2)) * c)| ≤ 1.4e-3 ∧
    |((3 * cP - (cP * (c ^ 2 - s ^ 2) + sP * (2 * s * c))) * c + co * (3 * sP - (cP * (2 * s * c) - sP * (c ^ 2 - s ^ 2))) * s) -
      ((-0.67164 - (-0.22388 * (c ^ 2 - s ^ 2) + 0.97451 * (2 * s * c))) * c +
        0.917482 * (3 * 0.97451 - (-0.22388 * (2 * s * c) - 0.97451 * (c ^ 2 - s ^ 2))) * s)| ≤ 1.4e-3 := by
  have s1 : |s| ≤ 1 := abs_le_of_sq_le_sq (by nlinarith [sq_nonneg c]) (by norm_num)
  have c1 : |c| ≤ 1 := abs_le_of_sq_le_sq (by nlinarith [sq_nonneg s]) (by norm_num)
  have d1 : |c ^ 2 - s ^ 2| ≤ 1 := by rw [abs_le]; constructor <;> nlinarith [sq_nonneg c, sq_nonneg s]
  have d2 : |2 * s * c| ≤ 1 := by rw [abs_le]; constructor <;> nlinarith [sq_nonneg (s + c), sq_nonneg (s - c)]
  generalize c ^ 2 - s ^ 2 = X at *
  generalize 2 * s * c = Y at *
  have co1 : |co| ≤ 1 := by rw [abs_le] at hco ⊢; norm_num at hco ⊢; constructor <;> linarith [hco.1, hco.2]
  obtain ⟨a, ha⟩ : ∃ a, a = cP + 0.22388 := ⟨_, rfl⟩
  obtain ⟨b, hb⟩ : ∃ b, b = sP - 0.97451 := ⟨_, rfl⟩
  obtain ⟨ε, hε⟩ : ∃ ε, ε = co - 0.917482 := ⟨_, rfl⟩
  rw [← ha] at hc
  rw [← hb] at hs
  rw [← hε] at hco
  have e1 : cP = a - 0.22388 := by rw [ha]; ring
  have e2 : sP = b + 0.97451 := by rw [hb]; ring
  have e3 : co = ε + 0.917482 := by rw [hε]; ring
  have Xs := abs_mul_le d1 s1
  have Xc := abs_mul_le d1 c1
  have Ys := abs_mul_le d2 s1
  have Yc := abs_mul_le d2 c1
  constructor
  · have t1 : |a * (-3 * s + X * s - co * (Y * c))| ≤ 1e-4 * 5 := by
      refine abs_mul_le hc ?_
      have := abs_mul_le co1 Yc
      generalize co * (Y * c) = z at *
      generalize X * s = z' at *
      rw [abs_le] at *
      constructor <;> linarith [this.1, this.2, Xs.1, Xs.2, s1.1, s1.2]
    have t2 : |b * (co * (3 * c + X * c) + Y * s)| ≤ 1.5e-4 * 5 := by
      refine abs_mul_le hs ?_
      have : |co * (3 * c + X * c)| ≤ 1 * 4 := by
        refine abs_mul_le co1 ?_
        generalize X * c = z' at *
        rw [abs_le] at *
        constructor <;> linarith [Xc.1, Xc.2, c1.1, c1.2]
      generalize co * (3 * c + X * c) = z at *
      generalize Y * s = z' at *
      rw [abs_le] at *
      constructor <;> linarith [this.1, this.2, Ys.1, Ys.2]
    have t3 : |ε * (3 * 0.97451 * c - (-0.22388 * (Y * c)) + 0.97451 * (X * c))| ≤ 5e-7 * 5 := by
      refine abs_mul_le hco ?_
      generalize X * c = z' at *
      generalize Y * c = z at *
      rw [abs_le] at *
      norm_num
      constructor <;> linarith [Xc.1, Xc.2, Yc.1, Yc.2, c1.1, c1.2]
    refine le_trans (le_of_eq (congrArg (fun x : ℝ => |x|) (?_ : _ = a * (-3 * s + X * s - co * (Y * c)) +
      b * (co * (3 * c + X * c) + Y * s) + ε * (3 * 0.97451 * c - (-0.22388 * (Y * c)) + 0.97451 * (X * c))))) ?_
    · rw [e1, e2, e3]; ring
    · refine (abs_add_le _ _).trans ((add_le_add ((abs_add_le _ _).trans (add_le_add t1 t2)) t3).trans (by norm_num))
  · have t1 : |a * (3 * c - X * c - co * (Y * s))| ≤ 1e-4 * 5 := by
      refine abs_mul_le hc ?_
      have := abs_mul_le co1 Ys
      generalize co * (Y * s) = z at *
      generalize X * c = z' at *
      rw [abs_le] at *
      constructor <;> linarith [this.1, this.2, Xc.1, Xc.2, c1.1, c1.2]
    have t2 : |b * (co * (3 * s + X * s) - Y * c)| ≤ 1.5e-4 * 5 := by
      refine abs_mul_le hs ?_
      have : |co * (3 * s + X * s)| ≤ 1 * 4 := by
        refine abs_mul_le co1 ?_
        generalize X * s = z' at *
        rw [abs_le] at *
        constructor <;> linarith [Xs.1, Xs.2, s1.1, s1.2]
      generalize co * (3 * s + X * s) = z at *
      generalize Y * c = z' at *
      rw [abs_le] at *
      constructor <;> linarith [this.1, this.2, Yc.1, Yc.2]
    have t3 : |ε * (3 * 0.97451 * s - (-0.22388 * (Y * s)) + 0.97451 * (X * s))| ≤ 5e-7 * 5 := by
      refine abs_mul_le hco ?_
      generalize X * s = z' at *
      generalize Y * s = z at *
      rw [abs_le] at *
      norm_num
      constructor <;> linarith [Xs.1, Xs.2, Ys.1, Ys.2, s1.1, s1.2]
    refine le_trans (le_of_eq (congrArg (fun x : ℝ => |x|) (?_ : _ = a * (3 * c - X * c - co * (Y * s)) +
      b * (co * (3 * s + X * s) - Y * c) + ε * (3 * 0.97451 * s - (-0.22388 * (Y * s)) + 0.97451 * (X * s))))) ?_
    · rw [e1, e2, e3]; ring
    · refine (abs_add_le _ _).trans ((add_le_add ((abs_add_le _ _).trans (add_le_add t1 t2)) t3).trans (by norm_num))

/-- The terms of the eccentricity. -/
theorem noon_ecc {w co a b : ℝ} (hco : |co - 0.917482| ≤ 5e-7) (ha : |a - w| ≤ 0.0225) (hb : |b - w| ≤ 0.02443)
    (hab : |a - 2 * b + w| ≤ 0.0267) :
    |(-(0.008355615 * (3 * Real.cos perihelion - Real.cos (2 * b - perihelion)) * Real.sin a) +
        co * (0.008355615 * (3 * Real.sin perihelion - Real.sin (2 * b - perihelion))) * Real.cos a) -
      (eotF (Real.sin w) (Real.cos w) + 0.082518 * (Real.sin w * Real.cos w))| ≤ 9e-4 ∧
    |(0.008355615 * (3 * Real.cos perihelion - Real.cos (2 * b - perihelion)) * Real.cos a +
        co * (0.008355615 * (3 * Real.sin perihelion - Real.sin (2 * b - perihelion))) * Real.sin a) -
      (eotG (Real.sin w) (Real.cos w) - (1 - 0.082518 * Real.sin w ^ 2))| ≤ 1.85e-3 := by
  obtain ⟨o1, o2⟩ := perihelion_bounds
  obtain ⟨n1, n2⟩ := noon_ecc_numbers (Real.sin_sq_add_cos_sq w) o1 o2 hco
  have co1 : |co| ≤ 0.9175 := by rw [abs_le] at hco ⊢; norm_num at hco ⊢; constructor <;> linarith [hco.1, hco.2]
  have bc : |Real.cos perihelion| ≤ 0.224 := by rw [abs_le] at o1 ⊢; norm_num at o1 ⊢; constructor <;> linarith [o1.1, o1.2]
  have bs : |Real.sin perihelion| ≤ 0.9747 := by rw [abs_le] at o2 ⊢; norm_num at o2 ⊢; constructor <;> linarith [o2.1, o2.2]
  have i1 : Real.cos (2 * w - perihelion) = Real.cos perihelion * (Real.cos w ^ 2 - Real.sin w ^ 2) +
      Real.sin perihelion * (2 * Real.sin w * Real.cos w) := by
    have := Real.sin_sq_add_cos_sq w
    rw [Real.cos_sub, Real.sin_two_mul, Real.cos_two_mul]; linear_combination Real.cos perihelion * this
  have i2 : Real.sin (2 * w - perihelion) = Real.cos perihelion * (2 * Real.sin w * Real.cos w) -
      Real.sin perihelion * (Real.cos w ^ 2 - Real.sin w ^ 2) := by
    have := Real.sin_sq_add_cos_sq w
    rw [Real.sin_sub, Real.sin_two_mul, Real.cos_two_mul]; linear_combination (-Real.sin perihelion) * this
  rw [← i1, ← i2] at n1 n2
  have sa := sin_near a w _ ha
  have ca := cos_near a w _ ha
  constructor
  · have f1 := sin_near (a - (2 * b - perihelion)) (w - (2 * w - perihelion)) 0.0267 (by
      rw [show a - (2 * b - perihelion) - (w - (2 * w - perihelion)) = a - 2 * b + w by ring]; exact hab)
    have f2 := sin_near (a + (2 * b - perihelion)) (w + (2 * w - perihelion)) 0.07136 (by
      rw [show a + (2 * b - perihelion) - (w + (2 * w - perihelion)) = (a - w) + 2 * (b - w) by ring]
      refine (abs_add_le _ _).trans ?_
      rw [abs_mul, abs_two]
      norm_num at *; linarith)
    have t1 := abs_mul_le bc sa
    have t2 := abs_mul_le (abs_mul_le co1 bs) ca
    have t3 : |(1 + co) / 2 * (Real.sin (a - (2 * b - perihelion)) - Real.sin (w - (2 * w - perihelion)))| ≤ 0.96 * 0.0267 :=
      abs_mul_le (by rw [abs_le] at co1 ⊢; norm_num at co1 ⊢; constructor <;> linarith [co1.1, co1.2]) f1
    have t4 : |(1 - co) / 2 * (Real.sin (a + (2 * b - perihelion)) - Real.sin (w + (2 * w - perihelion)))| ≤ 0.042 * 0.07136 :=
      abs_mul_le (by rw [abs_le] at hco ⊢; norm_num at hco ⊢; constructor <;> linarith [hco.1, hco.2]) f2
    have e : (-(0.008355615 * (3 * Real.cos perihelion - Real.cos (2 * b - perihelion)) * Real.sin a) +
        co * (0.008355615 * (3 * Real.sin perihelion - Real.sin (2 * b - perihelion))) * Real.cos a) -
        (eotF (Real.sin w) (Real.cos w) + 0.082518 * (Real.sin w * Real.cos w)) =
        0.008355615 * (-3 * (Real.cos perihelion * (Real.sin a - Real.sin w)) + 3 * (co * Real.sin perihelion * (Real.cos a - Real.cos w)) +
        (1 + co) / 2 * (Real.sin (a - (2 * b - perihelion)) - Real.sin (w - (2 * w - perihelion))) +
        (1 - co) / 2 * (Real.sin (a + (2 * b - perihelion)) - Real.sin (w + (2 * w - perihelion))) +
        ((-3 * Real.cos perihelion * Real.sin w + 3 * co * Real.sin perihelion * Real.cos w + Real.cos (2 * w - perihelion) * Real.sin w -
          co * Real.sin (2 * w - perihelion) * Real.cos w) -
        (0.67164 * Real.sin w + 3 * 0.917482 * 0.97451 * Real.cos w + (-0.22388 * (Real.cos w ^ 2 - Real.sin w ^ 2) +
          0.97451 * (2 * Real.sin w * Real.cos w)) * Real.sin w -
          0.917482 * (-0.22388 * (2 * Real.sin w * Real.cos w) - 0.97451 * (Real.cos w ^ 2 - Real.sin w ^ 2)) * Real.cos w))) := by
      unfold eotF
      rw [Real.sin_sub a, Real.sin_add a, Real.sin_sub w, Real.sin_add w]
      ring
    rw [e]
    generalize Real.cos perihelion * (Real.sin a - Real.sin w) = z1 at *
    generalize co * Real.sin perihelion * (Real.cos a - Real.cos w) = z2 at *
    generalize (1 + co) / 2 * (Real.sin (a - (2 * b - perihelion)) - Real.sin (w - (2 * w - perihelion))) = z3 at *
    generalize (1 - co) / 2 * (Real.sin (a + (2 * b - perihelion)) - Real.sin (w + (2 * w - perihelion))) = z4 at *
    generalize (-3 * Real.cos perihelion * Real.sin w + 3 * co * Real.sin perihelion * Real.cos w + _ - _) - (_ : ℝ) = z5 at *
    clear * - t1 t2 t3 t4 n1
    rw [abs_le] at *
    norm_num at *
    constructor <;> linarith [t1.1, t1.2, t2.1, t2.2, t3.1, t3.2, t4.1, t4.2, n1.1, n1.2]
  · have hb2 : |2 * b - perihelion - (2 * w - perihelion)| ≤ 0.04886 := by
      rw [show 2 * b - perihelion - (2 * w - perihelion) = 2 * (b - w) by ring, abs_mul, abs_two]; norm_num at *; linarith
    have f1 := cos_near _ _ _ hb2
    have f2 := sin_near _ _ _ hb2
    have t1 := abs_mul_le bc ca
    have t2 := abs_mul_le (abs_mul_le co1 bs) sa
    have t3 := abs_mul_le f1 (Real.abs_cos_le_one a)
    have t4 := abs_mul_le (Real.abs_cos_le_one (2 * w - perihelion)) ca
    have t5 := abs_mul_le co1 (abs_mul_le f2 (Real.abs_sin_le_one a))
    have t6 := abs_mul_le co1 (abs_mul_le (Real.abs_sin_le_one (2 * w - perihelion)) sa)
    have e : (0.008355615 * (3 * Real.cos perihelion - Real.cos (2 * b - perihelion)) * Real.cos a +
        co * (0.008355615 * (3 * Real.sin perihelion - Real.sin (2 * b - perihelion))) * Real.sin a) -
        (eotG (Real.sin w) (Real.cos w) - (1 - 0.082518 * Real.sin w ^ 2)) =
        0.008355615 * (3 * (Real.cos perihelion * (Real.cos a - Real.cos w)) + 3 * (co * Real.sin perihelion * (Real.sin a - Real.sin w)) -
        (Real.cos (2 * b - perihelion) - Real.cos (2 * w - perihelion)) * Real.cos a -
        Real.cos (2 * w - perihelion) * (Real.cos a - Real.cos w) -
        co * ((Real.sin (2 * b - perihelion) - Real.sin (2 * w - perihelion)) * Real.sin a) -
        co * (Real.sin (2 * w - perihelion) * (Real.sin a - Real.sin w)) +
        (((3 * Real.cos perihelion - Real.cos (2 * w - perihelion)) * Real.cos w + co * (3 * Real.sin perihelion -
          Real.sin (2 * w - perihelion)) * Real.sin w) -
        ((-0.67164 - (-0.22388 * (Real.cos w ^ 2 - Real.sin w ^ 2) + 0.97451 * (2 * Real.sin w * Real.cos w))) * Real.cos w +
        0.917482 * (3 * 0.97451 - (-0.22388 * (2 * Real.sin w * Real.cos w) - 0.97451 * (Real.cos w ^ 2 - Real.sin w ^ 2))) *
          Real.sin w))) := by
      unfold eotG
      ring
    rw [e]
    generalize Real.cos perihelion * (Real.cos a - Real.cos w) = z1 at *
    generalize co * Real.sin perihelion * (Real.sin a - Real.sin w) = z2 at *
    generalize (Real.cos (2 * b - perihelion) - Real.cos (2 * w - perihelion)) * Real.cos a = z3 at *
    generalize Real.cos (2 * w - perihelion) * (Real.cos a - Real.cos w) = z4 at *
    generalize co * ((Real.sin (2 * b - perihelion) - Real.sin (2 * w - perihelion)) * Real.sin a) = z5 at *
    generalize co * (Real.sin (2 * w - perihelion) * (Real.sin a - Real.sin w)) = z6 at *
    generalize ((3 * Real.cos perihelion - Real.cos (2 * w - perihelion)) * Real.cos w + _) - (_ : ℝ) = z7 at *
    clear * - t1 t2 t3 t4 t5 t6 n2
    rw [abs_le] at *
    norm_num at *
    constructor <;> linarith [t1.1, t1.2, t2.1, t2.2, t3.1, t3.2, t4.1, t4.2, t5.1, t5.2, t6.1, t6.2, n2.1, n2.2]

/-- The mean Sun at mean noon. -/
theorem noon_east {n lam w : ℝ} {j : ℤ} (hn : |n| ≤ 36525) (hh : ∃ k : ℤ, 2 * Real.pi * n + lam = k * (2 * Real.pi))
    (hw : meanLongitude n - Real.pi + 0.0244287 * (n / 36525) = w + j * (2 * Real.pi)) :
    |-(Real.sin lam * meanSun n 0) + Real.cos lam * meanSun n 1 - eotF (Real.sin w) (Real.cos w)| ≤ 0.0013 ∧
    |Real.cos lam * meanSun n 0 + Real.sin lam * meanSun n 1 - eotG (Real.sin w) (Real.cos w)| ≤ 0.006 := by
  obtain ⟨x, y, z, hx, hy, -, s0, s1, -⟩ := meanSun_coords n
  have hp := precession_le hn
  obtain ⟨-, v, -, e1, -, -, hv, hvd⟩ := ecc_terms n
  have e0 : meanEarth n 0 = Real.cos (meanLongitude n) -
      0.008355615 * (3 * Real.cos perihelion - Real.cos (2 * meanLongitude n - perihelion)) := by
    have he : eccentricity / 2 = 0.008355615 := by unfold eccentricity; norm_num
    rw [← he]; rfl
  obtain ⟨so, co⟩ := sincos_obl obliquity_near
  obtain ⟨k, hk⟩ := hh
  have p1 := Real.pi_gt_d20
  have p2 := Real.pi_lt_d20
  obtain ⟨T, hT⟩ : ∃ T, T = n / 36525 := ⟨_, rfl⟩
  have hT1 : |T| ≤ 1 := by
    rw [hT, abs_div, abs_of_pos (show (0 : ℝ) < 36525 by norm_num), div_le_one (by norm_num)]; exact hn
  obtain ⟨η, hη, hang⟩ : ∃ η : ℝ, |η - 0.002031085 * T| ≤ 7e-5 ∧ earthAngle n + lam = (meanLongitude n + Real.pi) + η + k * (2 * Real.pi) := by
    refine ⟨earthAngle n + lam - (meanLongitude n + Real.pi) - k * (2 * Real.pi), ?_, by ring⟩
    have : earthAngle n + lam - (meanLongitude n + Real.pi) - k * (2 * Real.pi) - 0.002031085 * T =
        Real.pi * (2 * 0.7790572732640 - 100.46457166 / 180 - 1) +
        (Real.pi * (2 * 0.00273781191135448 * 36525 - 35999.37244981 / 180) - 0.002031085) * T := by
      have : lam = k * (2 * Real.pi) - 2 * Real.pi * n := by linarith
      rw [this, hT]
      unfold earthAngle meanLongitude
      ring
    rw [this]
    refine (abs_add_le _ _).trans ?_
    rw [abs_mul _ T]
    have a1 : |Real.pi * (2 * 0.7790572732640 - 100.46457166 / 180 - 1)| ≤ 6.9e-5 := by
      rw [abs_le]; constructor <;> norm_num at p1 p2 ⊢ <;> linarith
    have a2 : |Real.pi * (2 * 0.00273781191135448 * 36525 - 35999.37244981 / 180) - 0.002031085| ≤ 1e-7 := by
      rw [abs_le]; constructor <;> norm_num at p1 p2 ⊢ <;> linarith
    have := mul_le_mul a2 hT1 (abs_nonneg _) (by norm_num)
    norm_num at *
    linarith
  have hpT : |precessionAngle n - 0.0097171735 * T| ≤ 1e-9 := by
    have : precessionAngle n - 0.0097171735 * T = (2004.3109 / 3600 * (Real.pi / 180) - 0.0097171735) * T := by
      rw [hT]; unfold precessionAngle; ring
    rw [this]
    refine (abs_mul_le (A := 1e-9) ?_ hT1).trans (by norm_num)
    rw [abs_le]; constructor <;> norm_num at p1 p2 ⊢ <;> linarith
  rw [← hT] at hw
  obtain ⟨b, hb⟩ : ∃ b, b = w - 0.0244287 * T := ⟨_, rfl⟩
  obtain ⟨a, ha⟩ : ∃ a, a = w - 0.0244287 * T + η := ⟨_, rfl⟩
  have eβ : meanLongitude n = b + Real.pi + j * (2 * Real.pi) := by rw [hb]; linarith
  have eA : earthAngle n + lam = a + ((j + 1 + k : ℤ) : ℝ) * (2 * Real.pi) := by
    rw [hang, eβ, ha, hb]; push_cast; ring
  have cA : Real.cos (earthAngle n + lam) = Real.cos a := by rw [eA, Real.cos_add_int_mul_two_pi]
  have sA : Real.sin (earthAngle n + lam) = Real.sin a := by rw [eA, Real.sin_add_int_mul_two_pi]
  have cb : Real.cos (meanLongitude n) = -Real.cos b := by rw [eβ, Real.cos_add_int_mul_two_pi, Real.cos_add_pi]
  have sb : Real.sin (meanLongitude n) = -Real.sin b := by rw [eβ, Real.sin_add_int_mul_two_pi, Real.sin_add_pi]
  have e2b : 2 * meanLongitude n - perihelion = 2 * b - perihelion + ((1 + 2 * j : ℤ) : ℝ) * (2 * Real.pi) := by
    rw [eβ]; push_cast; ring
  rw [e2b, Real.sin_add_int_mul_two_pi] at hvd
  rw [e2b, Real.cos_add_int_mul_two_pi, cb] at e0
  rw [sb] at e1
  obtain ⟨l1, l2⟩ := noon_lead hT1 rfl hη hpT so co ha hb
  have η1 := abs_le.mp hη
  have T1 := abs_le.mp hT1
  obtain ⟨c1, c2⟩ := noon_ecc (w := w) (a := a) (b := b) co
    (by rw [ha, abs_le]; norm_num at η1 ⊢; constructor <;> linarith [η1.1, η1.2, T1.1, T1.2])
    (by rw [hb, abs_le]; norm_num at η1 ⊢; constructor <;> linarith [η1.1, η1.2, T1.1, T1.2])
    (by rw [ha, hb, abs_le]; norm_num at η1 ⊢; constructor <;> linarith [η1.1, η1.2, T1.1, T1.2])
  rw [← hvd] at c1 c2
  have tiny : ∀ t : ℝ, |t| ≤ 1 → |precessionAngle n * (Real.sin obliquity * (v * t))| ≤ 0.009718 * (0.4 * (0.0335 * 1)) := fun t ht =>
    abs_mul_le hp (abs_mul_le (by rw [abs_le] at so ⊢; norm_num at so ⊢; constructor <;> linarith [so.1, so.2]) (abs_mul_le hv ht))
  have r1 := tiny _ (Real.abs_sin_le_one a)
  have r2 := tiny _ (Real.abs_cos_le_one a)
  generalize hu : 0.008355615 * (3 * Real.cos perihelion - Real.cos (2 * b - perihelion)) = u at *
  constructor
  · have E : -(Real.sin lam * meanSun n 0) + Real.cos lam * meanSun n 1 - eotF (Real.sin w) (Real.cos w) =
        ((-(Real.sin a * Real.cos b) + Real.cos obliquity * (Real.cos a * Real.sin b) +
          precessionAngle n * Real.sin obliquity * (Real.sin a * Real.sin b)) - -(0.082518 * (Real.sin w * Real.cos w))) +
        (-(u * Real.sin a) + Real.cos obliquity * v * Real.cos a -
          (eotF (Real.sin w) (Real.cos w) + 0.082518 * (Real.sin w * Real.cos w))) +
        precessionAngle n * (Real.sin obliquity * (v * Real.sin a)) := by
      have : -(Real.sin lam * meanSun n 0) + Real.cos lam * meanSun n 1 =
          -(Real.sin (earthAngle n + lam) * x) + Real.cos (earthAngle n + lam) * y := by
        rw [s0, s1, Real.cos_add, Real.sin_add]; ring
      rw [this, cA, sA, hx, hy, e0, e1]
      ring
    rw [E]
    refine (abs_add_le _ _).trans ((add_le_add ((abs_add_le _ _).trans (add_le_add l1 c1)) r1).trans (by norm_num))
  · have E : Real.cos lam * meanSun n 0 + Real.sin lam * meanSun n 1 - eotG (Real.sin w) (Real.cos w) =
        ((Real.cos a * Real.cos b + Real.cos obliquity * (Real.sin a * Real.sin b) -
          precessionAngle n * Real.sin obliquity * (Real.cos a * Real.sin b)) - (1 - 0.082518 * Real.sin w ^ 2)) +
        (u * Real.cos a + Real.cos obliquity * v * Real.sin a -
          (eotG (Real.sin w) (Real.cos w) - (1 - 0.082518 * Real.sin w ^ 2))) -
        precessionAngle n * (Real.sin obliquity * (v * Real.cos a)) := by
      have : Real.cos lam * meanSun n 0 + Real.sin lam * meanSun n 1 =
          Real.cos (earthAngle n + lam) * x + Real.sin (earthAngle n + lam) * y := by
        rw [s0, s1, Real.cos_add, Real.sin_add]; ring
      rw [this, cA, sA, hx, hy, e0, e1]
      ring
    rw [E]
    refine (abs_sub _ _).trans ((add_le_add ((abs_add_le _ _).trans (add_le_add l2 c2)) r2).trans (by norm_num))

end Verif
