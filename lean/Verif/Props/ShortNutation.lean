import Verif.Props.Series

/-!
# C131: the four largest terms of the nutation
-/

namespace Verif
open Arith Verif.Spec

theorem cong_near {e e' x y z w δ : ℝ} (h : Cong e x y) (h' : Cong e' z w) (hd : |y - w| ≤ δ) :
    |Real.sin x - Real.sin z| ≤ e + e' + δ ∧ |Real.cos x - Real.cos z| ≤ e + e' + δ := by
  have s1 := h.sin
  have s2 := h'.sin
  have s3 := (Real.abs_sin_sub_sin_le y w).trans hd
  have c1 := h.cos
  have c2 := h'.cos
  have c3 := (Real.abs_cos_sub_cos_le y w).trans hd
  rw [abs_le] at s1 s2 s3 c1 c2 c3
  constructor <;> rw [abs_le] <;> constructor <;>
    linarith [s1.1, s1.2, s2.1, s2.2, s3.1, s3.2, c1.1, c1.2, c2.1, c2.2, c3.1, c3.2]

theorem nut_rows : (NALS.zip CLS).reverse = ((NALS.zip CLS).drop 4).reverse ++
    [(⟨0, 0, 0, 0, 2⟩, ⟨2074554, 207, -698, -897492, 470, -291⟩), (⟨0, 0, 2, 0, 2⟩, ⟨-2276413, -234, 2796, 978459, -485, 1374⟩),
     (⟨0, 0, 2, -2, 2⟩, ⟨-13170906, -1675, -13696, 5730336, -3015, -4587⟩),
     (⟨0, 0, 0, 0, 1⟩, ⟨-172064161, -174666, 33386, 92052331, 9086, 15377⟩)] := by decide +kernel

theorem nut_rest : clsSum ((NALS.zip CLS).drop 4).reverse = (4924325, 1167707) := by decide +kernel

/-- The arguments of the four largest terms, linear in time, against the full fundamental arguments. -/
theorem nut_main_args (t : ℝ) (ht : |t| ≤ 1) (n f d : ℤ) (p : Nal × Cls) (hp : p ∈ NALS.zip CLS)
    (h : p.1 = ⟨0, 0, f, d, n⟩) (hf : |f| ≤ 2) (hd : |d| ≤ 2) (hn : |n| ≤ 2) :
    |Real.sin (nutArgs t p.1) - Real.sin (n * om03 t + (f * f03 t + d * d03 t))| ≤ 3 / 10 ^ 4 ∧
    |Real.cos (nutArgs t p.1) - Real.cos (n * om03 t + (f * f03 t + d * d03 t))| ≤ 3 / 10 ^ 4 := by
  have hO := ((cong_fundarg 450160.398036 (-6962890.5431) 7.4722 0.007702 (-0.00005939) t (by norm_num)).smul n)
  have hF := ((cong_fundarg 335779.526232 1739527262.8478 (-12.7512) (-0.001037) 0.00000417 t (by norm_num)).smul f)
  have hD := ((cong_fundarg 1072260.703692 1602961601.2090 (-6.3706) 0.006593 (-0.00003169) t (by norm_num)).smul d)
  have hs := hO.add (hF.add hD)
  have ha := nut_arg t p hp
  have rf : |(f : ℝ)| ≤ 2 := by exact_mod_cast hf
  have rd : |(d : ℝ)| ≤ 2 := by exact_mod_cast hd
  have rn : |(n : ℝ)| ≤ 2 := by exact_mod_cast hn
  have e : (mkRow p).arg t = (f * (335779.526232 + 1739527262.8478 * t) + d * (1072260.70369 + 1602961601.2090 * t) +
      n * (450160.398036 - 6962890.5431 * t)) * arcsec := by
    unfold NutRow.arg mkRow; rw [h]; push_cast; ring
  have hA : |arcsec| ≤ 4.85e-6 := by
    have := abs_le.mp as2r_close
    have e2 : (AS2R : ℝ) = 4.848136811095359935899141e-6 := by unfold AS2R; norm_num
    rw [e2] at this
    rw [abs_le]; norm_num at this ⊢; constructor <;> linarith [this.1, this.2]
  have q2 : |t ^ 2| ≤ 1 := by rw [abs_pow]; exact pow_le_one₀ (abs_nonneg t) ht
  have q3 : |t ^ 3| ≤ 1 := by rw [abs_pow]; exact pow_le_one₀ (abs_nonneg t) ht
  have q4 : |t ^ 4| ≤ 1 := by rw [abs_pow]; exact pow_le_one₀ (abs_nonneg t) ht
  rw [abs_le] at q2 q3 q4
  have dev : ∀ c0 c2 c3 c4 : ℝ, ∀ M : ℝ, ∀ k : ℤ, |(k : ℝ)| ≤ 2 → |c0| + |c2| + |c3| + |c4| ≤ M →
      |(k : ℝ) * (c0 + c2 * t ^ 2 + c3 * t ^ 3 + c4 * t ^ 4)| ≤ 2 * M := by
    intro c0 c2 c3 c4 M k hk hc
    have b2 : |c2 * t ^ 2| ≤ |c2| := by
      rw [abs_mul]; exact mul_le_of_le_one_right (abs_nonneg _) (abs_le.mpr q2)
    have b3 : |c3 * t ^ 3| ≤ |c3| := by
      rw [abs_mul]; exact mul_le_of_le_one_right (abs_nonneg _) (abs_le.mpr q3)
    have b4 : |c4 * t ^ 4| ≤ |c4| := by
      rw [abs_mul]; exact mul_le_of_le_one_right (abs_nonneg _) (abs_le.mpr q4)
    have a1 := abs_add_le (c0 + c2 * t ^ 2 + c3 * t ^ 3) (c4 * t ^ 4)
    have a2 := abs_add_le (c0 + c2 * t ^ 2) (c3 * t ^ 3)
    have a3 := abs_add_le c0 (c2 * t ^ 2)
    rw [abs_mul]
    exact mul_le_mul hk (by linarith) (abs_nonneg _) (by norm_num)
  have v1 := dev 0 (-7.4722) (-0.007702) 0.00005939 7.5 n rn (by norm_num [abs_of_pos, abs_of_neg])
  have v2 := dev 0 12.7512 0.001037 (-0.00000417) 12.8 f rf (by norm_num [abs_of_pos, abs_of_neg])
  have v3 := dev (-0.000002) 6.3706 (-0.006593) 0.00003169 6.4 d rd (by norm_num [abs_of_pos, abs_of_neg])
  have hs' := hs.mono (e' := 1 / 10 ^ 10) (by
    have : 0 ≤ |t| := abs_nonneg t
    have k1 := mul_le_mul_of_nonneg_right (add_le_add rn (add_le_add rf rd)) (show 0 ≤ 6 / 10 ^ 18 * (1 + |t|) by positivity)
    norm_num at k1 ⊢
    nlinarith)
  have hy := cong_near ha hs' (δ := 2.7e-4) (by
    rw [e]
    have k : ∀ x y z : ℝ, |x| ≤ 2 * 7.5 → |y| ≤ 2 * 12.8 → |z| ≤ 2 * 6.4 → |(x + y + z) * arcsec| ≤ 2.7e-4 := by
      intro x y z hx hy hz
      have a1 := abs_add_le (x + y) z
      have a2 := abs_add_le x y
      rw [abs_mul]
      refine (mul_le_mul (show |x + y + z| ≤ 53.4 by norm_num at *; linarith) hA (abs_nonneg _) (by norm_num)).trans (by norm_num)
    have := k _ _ _ v1 v2 v3
    convert this using 2
    push_cast
    ring)
  have fin : (1 : ℝ) / 10 ^ 18 + 1 / 10 ^ 10 + 2.7e-4 ≤ 3 / 10 ^ 4 := by norm_num
  exact ⟨hy.1.trans fin, hy.2.trans fin⟩

/-- **C131.** Within a century of J2000.0 the nutation is given by the four largest terms, in the longitude of the node of the Moon, twice the
mean longitude of the Sun, twice that of the Moon and twice that of the node, to 0.54 seconds of arc in longitude and 0.14 in obliquity. -/
theorem C131_short_series (a b t Om S L : ℝ) (h : |a + b - 2451545| ≤ 36525) (ht : t = (a + b - 2451545) / 36525)
    (hOm : Om = om03 t) (hS : S = f03 t - d03 t + om03 t) (hL : L = f03 t + om03 t) :
    |(nutation (a, b)).1 - (-17.20 * Real.sin Om - 1.32 * Real.sin (2 * S) - 0.23 * Real.sin (2 * L) + 0.21 * Real.sin (2 * Om)) * AS2R|
      ≤ 0.54 * AS2R ∧
    |(nutation (a, b)).2 - (9.20 * Real.cos Om + 0.57 * Real.cos (2 * S) + 0.10 * Real.cos (2 * L) - 0.09 * Real.cos (2 * Om)) * AS2R|
      ≤ 0.14 * AS2R := by
  have t1 : |t| ≤ 1 := by
    rw [ht, abs_div, abs_of_pos (show (0 : ℝ) < 36525 by norm_num), div_le_one (by norm_num)]
    exact h
  have he : nutation (a, b) =
      (((NALS.zip CLS).reverse.foldl (nutStep (nutArgs (centuries (a, b))) (centuries (a, b))) (lit 0, lit 0)).1 *. U2R +. DPPLAN,
       ((NALS.zip CLS).reverse.foldl (nutStep (nutArgs (centuries (a, b))) (centuries (a, b))) (lit 0, lit 0)).2 *. U2R +. DEPLAN) := rfl
  have hc : centuries (a, b) = t := by rw [centuries_real, ht]
  rw [he, hc, nut_rows, List.foldl_append]
  obtain ⟨r1, r2⟩ := nut_fold (nutArgs t) t t1 ((NALS.zip CLS).drop 4).reverse (lit 0, lit 0)
  rw [nut_rest] at r1 r2
  generalize ((NALS.zip CLS).drop 4).reverse.foldl (nutStep (nutArgs t) t) (lit 0, lit 0) = P at *
  obtain ⟨s1, c1⟩ := nut_main_args t t1 1 0 0 (⟨0, 0, 0, 0, 1⟩, ⟨-172064161, -174666, 33386, 92052331, 9086, 15377⟩)
    (by decide +kernel) rfl (by norm_num) (by norm_num) (by norm_num)
  obtain ⟨s2, c2⟩ := nut_main_args t t1 2 2 (-2) (⟨0, 0, 2, -2, 2⟩, ⟨-13170906, -1675, -13696, 5730336, -3015, -4587⟩)
    (by decide +kernel) rfl (by norm_num) (by norm_num) (by norm_num)
  obtain ⟨s3, c3⟩ := nut_main_args t t1 2 2 0 (⟨0, 0, 2, 0, 2⟩, ⟨-2276413, -234, 2796, 978459, -485, 1374⟩)
    (by decide +kernel) rfl (by norm_num) (by norm_num) (by norm_num)
  obtain ⟨s4, c4⟩ := nut_main_args t t1 2 0 0 (⟨0, 0, 0, 0, 2⟩, ⟨2074554, 207, -698, -897492, 470, -291⟩)
    (by decide +kernel) rfl (by norm_num) (by norm_num) (by norm_num)
  have e1 : ((1 : ℤ) : ℝ) * om03 t + (((0 : ℤ) : ℝ) * f03 t + ((0 : ℤ) : ℝ) * d03 t) = Om := by rw [hOm]; push_cast; ring
  have e2 : ((2 : ℤ) : ℝ) * om03 t + (((2 : ℤ) : ℝ) * f03 t + ((-2 : ℤ) : ℝ) * d03 t) = 2 * S := by rw [hS]; push_cast; ring
  have e3 : ((2 : ℤ) : ℝ) * om03 t + (((2 : ℤ) : ℝ) * f03 t + ((0 : ℤ) : ℝ) * d03 t) = 2 * L := by rw [hL]; push_cast; ring
  have e4 : ((2 : ℤ) : ℝ) * om03 t + (((0 : ℤ) : ℝ) * f03 t + ((0 : ℤ) : ℝ) * d03 t) = 2 * Om := by rw [hOm]; push_cast; ring
  rw [e1] at s1 c1
  rw [e2] at s2 c2
  rw [e3] at s3 c3
  rw [e4] at s4 c4
  simp only [List.foldl_cons, List.foldl_nil, nutStep, flt, lit_real, add_real, mul_real, sin_real, cos_real]
  have tb : ∀ (x : ℝ) (u v : ℝ), |(0 + u * t) * Real.sin x + v * Real.cos x| ≤ |u| + |v| ∧
      |(0 + u * t) * Real.cos x + v * Real.sin x| ≤ |u| + |v| := fun x u v =>
    ⟨(term_le t1 (Real.abs_sin_le_one x) (Real.abs_cos_le_one x)).trans (by simp),
     (term_le t1 (Real.abs_cos_le_one x) (Real.abs_sin_le_one x)).trans (by simp)⟩
  obtain ⟨p1, -⟩ := tb (nutArgs t ⟨0, 0, 0, 0, 1⟩) (-174666) 33386
  obtain ⟨p2, -⟩ := tb (nutArgs t ⟨0, 0, 2, -2, 2⟩) (-1675) (-13696)
  obtain ⟨p3, -⟩ := tb (nutArgs t ⟨0, 0, 2, 0, 2⟩) (-234) 2796
  obtain ⟨p4, -⟩ := tb (nutArgs t ⟨0, 0, 0, 0, 2⟩) 207 (-698)
  obtain ⟨-, m1⟩ := tb (nutArgs t ⟨0, 0, 0, 0, 1⟩) 9086 15377
  obtain ⟨-, m2⟩ := tb (nutArgs t ⟨0, 0, 2, -2, 2⟩) (-3015) (-4587)
  obtain ⟨-, m3⟩ := tb (nutArgs t ⟨0, 0, 2, 0, 2⟩) (-485) 1374
  obtain ⟨-, m4⟩ := tb (nutArgs t ⟨0, 0, 0, 0, 2⟩) 470 (-291)
  have hU : (U2R : ℝ) = AS2R / 10000000 := by
    unfold U2R; simp only [lit_real, div_real]; norm_num
  have hP : (DPPLAN : ℝ) = -0.135 * (AS2R / 1000) := by
    unfold DPPLAN MAS2R; simp only [lit_real, div_real, mul_real, neg_real]; norm_num
  have hE : (DEPLAN : ℝ) = 0.388 * (AS2R / 1000) := by
    unfold DEPLAN MAS2R; simp only [lit_real, div_real, mul_real]; norm_num
  have hA : (0 : ℝ) < AS2R := by unfold AS2R; norm_num
  have u1 := Real.abs_sin_le_one Om
  have u2 := Real.abs_sin_le_one (2 * S)
  have u3 := Real.abs_sin_le_one (2 * L)
  have u4 := Real.abs_sin_le_one (2 * Om)
  have w1 := Real.abs_cos_le_one Om
  have w2 := Real.abs_cos_le_one (2 * S)
  have w3 := Real.abs_cos_le_one (2 * L)
  have w4 := Real.abs_cos_le_one (2 * Om)
  simp only [hU, hP, hE, lit_real, Rat.cast_zero, abs_zero, zero_add] at *
  generalize (AS2R : ℝ) = A at *
  generalize nutArgs t ⟨0, 0, 0, 0, 1⟩ = x1 at *
  generalize nutArgs t ⟨0, 0, 2, -2, 2⟩ = x2 at *
  generalize nutArgs t ⟨0, 0, 2, 0, 2⟩ = x3 at *
  generalize nutArgs t ⟨0, 0, 0, 0, 2⟩ = x4 at *
  have scale : ∀ X Y c : ℝ, |Y| ≤ c → X = Y * A → |X| ≤ c * A := by
    intro X Y c hY hX
    rw [hX, abs_mul, abs_of_pos hA]
    exact mul_le_mul_of_nonneg_right hY hA.le
  constructor
  · refine scale _ ((P.1 + ((2074554 + 207 * t) * Real.sin x4 + -698 * Real.cos x4) + ((-2276413 + -234 * t) * Real.sin x3 + 2796 * Real.cos x3)
      + ((-13170906 + -1675 * t) * Real.sin x2 + -13696 * Real.cos x2) + ((-172064161 + -174666 * t) * Real.sin x1 + 33386 * Real.cos x1))
        / 10000000 - 0.000135 - (-17.20 * Real.sin Om - 1.32 * Real.sin (2 * S) - 0.23 * Real.sin (2 * L) + 0.21 * Real.sin (2 * Om)))
      _ ?_ (by push_cast; ring)
    clear c1 c2 c3 c4 m1 m2 m3 m4 w1 w2 w3 w4 r2 scale hA
    generalize Real.sin Om = y1 at *
    generalize Real.sin (2 * S) = y2 at *
    generalize Real.sin (2 * L) = y3 at *
    generalize Real.sin (2 * Om) = y4 at *
    generalize Real.sin x1 = z1 at *
    generalize Real.sin x2 = z2 at *
    generalize Real.sin x3 = z3 at *
    generalize Real.sin x4 = z4 at *
    norm_num [abs_le] at r1 s1 s2 s3 s4 p1 p2 p3 p4 u1 u2 u3 u4 ⊢
    constructor <;> linarith [r1.1, r1.2, s1.1, s1.2, s2.1, s2.2, s3.1, s3.2, s4.1, s4.2, p1.1, p1.2, p2.1, p2.2, p3.1, p3.2, p4.1, p4.2,
      u1.1, u1.2, u2.1, u2.2, u3.1, u3.2, u4.1, u4.2]
  · refine scale _ ((P.2 + ((-897492 + 470 * t) * Real.cos x4 + -291 * Real.sin x4) + ((978459 + -485 * t) * Real.cos x3 + 1374 * Real.sin x3)
      + ((5730336 + -3015 * t) * Real.cos x2 + -4587 * Real.sin x2) + ((92052331 + 9086 * t) * Real.cos x1 + 15377 * Real.sin x1))
        / 10000000 + 0.000388 - (9.20 * Real.cos Om + 0.57 * Real.cos (2 * S) + 0.10 * Real.cos (2 * L) - 0.09 * Real.cos (2 * Om)))
      _ ?_ (by push_cast; ring)
    clear s1 s2 s3 s4 p1 p2 p3 p4 u1 u2 u3 u4 r1 scale hA
    generalize Real.cos Om = y1 at *
    generalize Real.cos (2 * S) = y2 at *
    generalize Real.cos (2 * L) = y3 at *
    generalize Real.cos (2 * Om) = y4 at *
    generalize Real.cos x1 = z1 at *
    generalize Real.cos x2 = z2 at *
    generalize Real.cos x3 = z3 at *
    generalize Real.cos x4 = z4 at *
    norm_num [abs_le] at r2 c1 c2 c3 c4 m1 m2 m3 m4 w1 w2 w3 w4 ⊢
    constructor <;> linarith [r2.1, r2.2, c1.1, c1.2, c2.1, c2.2, c3.1, c3.2, c4.1, c4.2, m1.1, m1.2, m2.1, m2.2, m3.1, m3.2, m4.1, m4.2,
      w1.1, w1.2, w2.1, w2.2, w3.1, w3.2, w4.1, w4.2]

/-- 2024-03-20. -/
example (t : ℝ) (ht : t = (2400000.5 + 60389 - 2451545) / 36525) :
    |(nutation ((2400000.5, 60389) : ℝ × ℝ)).1 - (-17.20 * Real.sin (om03 t) - 1.32 * Real.sin (2 * (f03 t - d03 t + om03 t))
      - 0.23 * Real.sin (2 * (f03 t + om03 t)) + 0.21 * Real.sin (2 * om03 t)) * AS2R| ≤ 0.54 * AS2R :=
  (C131_short_series 2400000.5 60389 t _ _ _ (by rw [abs_le]; norm_num) ht rfl rfl rfl).1

end Verif
