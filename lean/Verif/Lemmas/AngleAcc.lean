import Verif.Float.NB
import Verif.Lemmas.LibmAcc
import Verif.Props.Common
import Mathlib.Analysis.SpecialFunctions.Trigonometric.Bounds

/-!
# Rounding in `Vec3::norm`, `Vec3::normalize`, `Vec3::dot` and `Vec3::angle`
-/

namespace Verif
open Arith F64

/-- The float vector has these exact values. -/
def VIs (v : Vec3 F64) (V : Vec3 ℝ) : Prop :=
  (∃ q : ℚ, Is v.x q ∧ (q : ℝ) = V.x) ∧ (∃ q : ℚ, Is v.y q ∧ (q : ℝ) = V.y) ∧ (∃ q : ℚ, Is v.z q ∧ (q : ℝ) = V.z)

theorem abs_x_le_norm (V : Vec3 ℝ) : |V.x| ≤ V.norm ∧ |V.y| ≤ V.norm ∧ |V.z| ≤ V.norm := by
  rw [norm_real]
  refine ⟨Real.abs_le_sqrt ?_, Real.abs_le_sqrt ?_, Real.abs_le_sqrt ?_⟩ <;>
    nlinarith [sq_nonneg V.x, sq_nonneg V.y, sq_nonneg V.z]

/-- `Vec3::norm`: relative error `1e-15`. -/
theorem norm_acc {v : Vec3 F64} {V : Vec3 ℝ} (h : VIs v V) {L : ℝ} (hL : V.norm = L) (L1 : 1 / 1000 ≤ L) (L2 : L ≤ 10 ^ 13) :
    NB v.norm L (1 / 10 ^ 15 * L) L := by
  obtain ⟨⟨p, hp, ep⟩, ⟨q, hq, eq⟩, ⟨r, hr, er⟩⟩ := h
  have hb := abs_x_le_norm V
  have hs := norm_sq_real V
  rw [hL] at hb hs
  have l0 : 0 < L := by linarith
  have Q1 : 1 / 10 ^ 6 ≤ L * L := by
    have : (1 / 1000 : ℝ) * (1 / 1000) ≤ L * L := mul_le_mul L1 L1 (by norm_num) l0.le
    norm_num at this ⊢; exact this
  have Q2 : L * L ≤ 10 ^ 30 := by
    have : L * L ≤ 10 ^ 13 * 10 ^ 13 := mul_le_mul L2 L2 l0.le (by norm_num)
    norm_num at this ⊢; linarith
  have sx := sq_nonneg V.x
  have sy := sq_nonneg V.y
  have sz := sq_nonneg V.z
  have sqb : ∀ {x : F64} {a : ℝ} {t : ℚ}, Is x t → (t : ℝ) = a → |a| ≤ L → NB (sq x) (a * a) (1.2 / 10 ^ 16 * (L * L)) (L * L) := by
    intro x a t h1 h2 h3
    have n := NB.of_is' h1 h2 h3
    exact n.mul n ⟨by norm_num at Q1 ⊢; linarith, le_rfl, by norm_num at Q2 ⊢; linarith⟩
  have n1 := (sqb hp ep hb.1).add (sqb hq eq hb.2.1) (E := 4.7 / 10 ^ 16 * (L * L)) (M := 2 * (L * L))
    ⟨by norm_num at Q1 ⊢; linarith, by linarith, by norm_num at Q2 ⊢; linarith⟩
  have n2 := (n1.remag (M := L * L) (by rw [abs_of_nonneg (by nlinarith)]; nlinarith)).add (sqb hr er hb.2.2)
    (E := 8.2 / 10 ^ 16 * (L * L)) (M := 2 * (L * L))
    ⟨by norm_num at Q1 ⊢; linarith, by linarith, by norm_num at Q2 ⊢; linarith⟩
  have hs' : V.x * V.x + V.y * V.y + V.z * V.z = L * L := by nlinarith
  have n3 := (n2.congr hs').remag (M := L ^ 2) (by rw [abs_of_nonneg (by positivity)]; exact le_of_eq (by ring))
  have e1 : 8.2 / 10 ^ 16 * (L * L) / L = 8.2 / 10 ^ 16 * L := by field_simp
  have n4 := n3.sqrt (β := L) (C := L) (E := 1 / 10 ^ 15 * L) (M := L) l0 (le_of_eq (by ring)) (by norm_num; nlinarith) l0.le le_rfl
    ⟨by rw [e1]; norm_num; linarith, le_rfl⟩
  exact n4.congr (Real.sqrt_mul_self l0.le)

/-- `Vec3::normalize`: every component is within `1.3e-15`. -/
theorem normalize_acc {v : Vec3 F64} {V : Vec3 ℝ} (h : VIs v V) {L : ℝ} (hL : V.norm = L) (L1 : 1 / 1000 ≤ L)
    (L2 : L ≤ 10 ^ 13) :
    NB v.normalize.x (V.x / L) (13 / 10 ^ 16) 1 ∧ NB v.normalize.y (V.y / L) (13 / 10 ^ 16) 1 ∧
    NB v.normalize.z (V.z / L) (13 / 10 ^ 16) 1 := by
  have hn := norm_acc h hL L1 L2
  obtain ⟨⟨p, hp, ep⟩, ⟨q, hq, eq⟩, ⟨r, hr, er⟩⟩ := h
  have hb := abs_x_le_norm V
  rw [hL] at hb
  have l0 : 0 < L := by linarith
  set I := 1 / L with hI
  have I0 : 0 < I := by positivity
  have I1 : I ≤ 1000 := by rw [hI, div_le_iff₀ l0]; linarith
  have I2 : 1 / 10 ^ 13 ≤ I := by rw [hI]; exact one_div_le_one_div_of_le l0 L2
  have hLI : L * I = 1 := by rw [hI]; field_simp
  have h1 : NB (lit 1 : F64) 1 0 1 := by
    have := NB.of_is (Is.lit_int 1 (by norm_num)) (M := 1) (by norm_num); norm_num at this; exact this
  have e1 : (0 : ℝ) / (L - 1 / 10 ^ 15 * L) + 1 * (1 / 10 ^ 15 * L) / ((L - 1 / 10 ^ 15 * L) * L) = 1 / (10 ^ 15 - 1) * I := by
    rw [hI, show L - 1 / 10 ^ 15 * L = (1 - 1 / 10 ^ 15) * L by ring]
    field_simp; norm_num
  have nI := h1.div hn (β := L) (E := 1.14 / 10 ^ 15 * I) (M := I) (le_abs_self L) (by norm_num; linarith)
    ⟨by rw [e1, ← hI]; norm_num at I2 ⊢; linarith, le_rfl, by rw [e1, ← hI]; norm_num at I1 ⊢; linarith⟩
  have key : ∀ {x : F64} {a : ℝ} {t : ℚ}, Is x t → (t : ℝ) = a → |a| ≤ L →
      NB ((lit 1 /. v.norm) *. x) (a / L) (13 / 10 ^ 16) 1 := by
    intro x a t h1 h2 h3
    have n := nI.mul (NB.of_is' h1 h2 h3) (E := 13 / 10 ^ 16) (M := 1)
      ⟨by nlinarith, by linarith, by nlinarith⟩
    exact n.congr (by ring)
  exact ⟨key hp ep hb.1, key hq eq hb.2.1, key hr er hb.2.2⟩

/-- The cosine computed by `Vec3::angle`. -/
theorem cosine_acc {v w : Vec3 F64} {V W : Vec3 ℝ} (hv : VIs v V) (hw : VIs w W) (v1 : 1 / 1000 ≤ V.norm)
    (v2 : V.norm ≤ 10 ^ 13) (w1 : 1 / 1000 ≤ W.norm) (w2 : W.norm ≤ 10 ^ 13) :
    Near (v.normalize.dot w.normalize) ((V.x * W.x + V.y * W.y + V.z * W.z) / (V.norm * W.norm)) (10 / 10 ^ 15) := by
  obtain ⟨x1, x2, x3⟩ := normalize_acc hv rfl v1 v2
  obtain ⟨y1, y2, y3⟩ := normalize_acc hw rfl w1 w2
  have p1 := x1.mul y1 (E := 272 / 10 ^ 17) (M := 1) (by norm_num)
  have p2 := x2.mul y2 (E := 272 / 10 ^ 17) (M := 1) (by norm_num)
  have p3 := x3.mul y3 (E := 272 / 10 ^ 17) (M := 1) (by norm_num)
  have s := (p1.add p2 (E := 568 / 10 ^ 17) (M := 2) (by norm_num)).add p3 (E := 10 / 10 ^ 15) (M := 3) (by norm_num)
  refine (s.congr ?_).near
  have : V.norm ≠ 0 := by intro h; rw [h] at v1; norm_num at v1
  have : W.norm ≠ 0 := by intro h; rw [h] at w1; norm_num at w1
  field_simp

/-- Conditioning of the inverse cosine: an error `ε` in the cosine of an angle with sine at least `10 √ε` moves the
angle by at most `1.02 ε` divided by the sine. -/
theorem arccos_close {θ x ε : ℝ} (h0 : 0 ≤ θ) (h1 : θ ≤ Real.pi) (hs : 0 < Real.sin θ) (hx : |x - Real.cos θ| ≤ ε)
    (hε : ε ≤ (Real.sin θ) ^ 2 / 100) : |x| ≤ 1 ∧ |Real.arccos x - θ| ≤ 1.02 * ε / Real.sin θ := by
  set s := Real.sin θ with hsdef
  have hcs := Real.sin_sq_add_cos_sq θ
  have s1 := Real.sin_le_one θ
  have c1 := Real.cos_le_one θ
  have c2 := Real.neg_one_le_cos θ
  have e0 : 0 ≤ ε := (abs_nonneg _).trans hx
  have hx' := abs_le.mp hx
  have g : (1 - |Real.cos θ|) * (1 + |Real.cos θ|) = s ^ 2 := by
    rw [hsdef]
    have := sq_abs (Real.cos θ)
    nlinarith
  have ac : |Real.cos θ| ≤ 1 := abs_le.mpr ⟨c2, c1⟩
  have g2 : s ^ 2 / 2 ≤ 1 - |Real.cos θ| := by nlinarith [abs_nonneg (Real.cos θ)]
  have hxa : |x| ≤ |Real.cos θ| + ε := by
    have : x = Real.cos θ + (x - Real.cos θ) := by ring
    rw [this]; exact (abs_add_le _ _).trans (by linarith)
  have hx1 : |x| ≤ 1 := by nlinarith
  refine ⟨hx1, ?_⟩
  have hx2 := abs_le.mp hx1
  set φ := Real.arccos x with hφ
  have hc : Real.cos φ = x := Real.cos_arccos hx2.1 hx2.2
  have f0 := Real.arccos_nonneg x
  have f1 := Real.arccos_le_pi x
  rw [← hφ] at f0 f1
  have sf : 0 ≤ Real.sin φ := Real.sin_nonneg_of_nonneg_of_le_pi f0 f1
  have hcs' := Real.sin_sq_add_cos_sq φ
  rw [hc] at hcs'
  have sf2 : 0.98 * s ≤ Real.sin φ := by
    have t : (x - Real.cos θ) * (x + Real.cos θ) ≤ ε * 2 := by
      refine (le_abs_self _).trans ?_
      rw [abs_mul]
      refine mul_le_mul hx ?_ (abs_nonneg _) e0
      exact (abs_add_le _ _).trans (by linarith)
    nlinarith
  have hsum : 1.98 * s ≤ Real.sin φ + Real.sin θ := by rw [← hsdef]; linarith
  have k1 : Real.sin φ + Real.sin θ = 2 * Real.sin ((φ + θ) / 2) * Real.cos ((φ - θ) / 2) := by
    have a := Real.sin_add ((φ + θ) / 2) ((φ - θ) / 2)
    have b := Real.sin_sub ((φ + θ) / 2) ((φ - θ) / 2)
    rw [show (φ + θ) / 2 + (φ - θ) / 2 = φ by ring] at a
    rw [show (φ + θ) / 2 - (φ - θ) / 2 = θ by ring] at b
    rw [a, b]; ring
  have k2 : Real.cos φ - Real.cos θ = -(2 * Real.sin ((φ + θ) / 2) * Real.sin ((φ - θ) / 2)) := by
    rw [Real.cos_sub_cos]; ring
  set u := (φ - θ) / 2 with hu
  have hcu : 0 < Real.cos u := by
    by_contra hneg
    push Not at hneg
    have : Real.cos u = 0 ∨ Real.cos u < 0 := by rcases hneg.lt_or_eq with h | h; exact .inr h; exact .inl h
    have hge : 0 ≤ Real.cos u := Real.cos_nonneg_of_mem_Icc ⟨by rw [hu]; linarith, by rw [hu]; linarith⟩
    have hz : Real.cos u = 0 := le_antisymm hneg hge
    rw [hz, mul_zero] at k1
    nlinarith
  have hlt : |u| < Real.pi / 2 := by
    by_contra hneg
    push Not at hneg
    have hle : |u| ≤ Real.pi / 2 := abs_le.mpr ⟨by rw [hu]; linarith, by rw [hu]; linarith⟩
    have : |u| = Real.pi / 2 := le_antisymm hle hneg
    rw [← Real.cos_abs, this, Real.cos_pi_div_two] at hcu
    exact lt_irrefl _ hcu
  have hA : 0 < Real.sin ((φ + θ) / 2) := by
    have : 0 < 2 * Real.sin ((φ + θ) / 2) * Real.cos u := by rw [← k1]; nlinarith
    nlinarith [(pos_iff_pos_of_mul_pos this).mpr hcu]
  have ht := Real.le_tan (abs_nonneg u) hlt
  rw [Real.tan_eq_sin_div_cos, Real.cos_abs, le_div_iff₀ hcu] at ht
  have hsa : Real.sin |u| ≤ |Real.sin u| := by
    rcases abs_cases u with ⟨h, -⟩ | ⟨h, -⟩ <;> rw [h]
    · exact le_abs_self _
    · rw [Real.sin_neg]; exact neg_le_abs _
  have fin : |u| * (1.98 * s) ≤ ε := by
    calc |u| * (1.98 * s) ≤ |u| * (Real.sin φ + Real.sin θ) := by gcongr
      _ = 2 * Real.sin ((φ + θ) / 2) * (|u| * Real.cos u) := by rw [k1]; ring
      _ ≤ 2 * Real.sin ((φ + θ) / 2) * |Real.sin u| := by gcongr; exact ht.trans hsa
      _ = |Real.cos φ - Real.cos θ| := by
          rw [k2, abs_neg, abs_mul, abs_of_pos (show 0 < 2 * Real.sin ((φ + θ) / 2) by linarith)]
      _ ≤ ε := by rw [hc]; exact hx
  rw [show φ - θ = 2 * u by rw [hu]; ring, abs_mul, abs_of_pos (show (0 : ℝ) < 2 by norm_num), le_div_iff₀ hs]
  nlinarith

/-- Angles with close cosines are close, also at the ends. -/
theorem angle_close {θ θ' : ℝ} (h0 : 0 ≤ θ) (h1 : θ ≤ Real.pi) (h0' : 0 ≤ θ') (h1' : θ' ≤ Real.pi)
    (h : |Real.cos θ' - Real.cos θ| ≤ 1.2 / 10 ^ 9) : |θ' - θ| ≤ 4.9 / 10 ^ 5 := by
  have key : ∀ {a b : ℝ}, 0 ≤ a → a ≤ b → b ≤ Real.pi → Real.cos a - Real.cos b ≤ 1.2 / 10 ^ 9 → b - a ≤ 4.9 / 10 ^ 5 := by
    intro a b ha hab hb hc
    set y := (b - a) / 2 with hy
    have y0 : 0 ≤ y := by linarith
    have yp : y ≤ Real.pi / 2 := by linarith
    have hm : Real.sin y ≤ Real.sin ((a + b) / 2) := by
      rcases le_total ((a + b) / 2) (Real.pi / 2) with hh | hh
      · exact Real.sin_le_sin_of_le_of_le_pi_div_two (by linarith [Real.pi_pos]) hh (by linarith)
      · rw [← Real.sin_pi_sub ((a + b) / 2)]
        exact Real.sin_le_sin_of_le_of_le_pi_div_two (by linarith [Real.pi_pos]) (by linarith) (by linarith)
    have hs0 : 0 ≤ Real.sin y := Real.sin_nonneg_of_nonneg_of_le_pi y0 (by linarith [Real.pi_pos])
    have e : Real.cos a - Real.cos b = 2 * Real.sin ((a + b) / 2) * Real.sin y := by
      rw [Real.cos_sub_cos, show (a - b) / 2 = -y by rw [hy]; ring, Real.sin_neg]
      ring
    have q : Real.sin y ^ 2 ≤ 0.6 / 10 ^ 9 := by
      rw [e] at hc
      nlinarith
    have hsy : Real.sin y ≤ 2.4495 / 10 ^ 5 := by
      by_contra hn
      push Not at hn
      have : (2.4495 / 10 ^ 5 : ℝ) ^ 2 < Real.sin y ^ 2 := pow_lt_pow_left₀ hn (by norm_num) (by norm_num)
      norm_num at this q
      linarith
    have j1 : 2 / Real.pi * y ≤ Real.sin y := Real.mul_le_sin y0 yp
    have y1 : y ≤ 1 / 1000 := by
      have p := Real.pi_lt_d2
      have pp := Real.pi_pos
      have : 2 / Real.pi * y * Real.pi = 2 * y := by field_simp
      have h2 : 2 * y ≤ 2.4495 / 10 ^ 5 * Real.pi := by
        rw [← this]; exact mul_le_mul_of_nonneg_right (j1.trans hsy) pp.le
      norm_num at p h2 ⊢
      nlinarith
    rcases y0.eq_or_lt with hz | hz
    · rw [← hz] at hy
      norm_num
      linarith
    · have j2 := Real.sin_gt_sub_cube hz
      have j3 : y ^ 3 ≤ y * (1 / 1000) ^ 2 := by
        rw [pow_succ' y 2]
        gcongr
      norm_num at j3 hsy ⊢
      nlinarith
  have a' := abs_le.mp h
  rcases le_total θ θ' with hh | hh
  · rw [abs_of_nonneg (by linarith)]
    exact key h0 hh h1' (by linarith [a'.1])
  · rw [abs_of_nonpos (by linarith)]
    have := key h0' hh h1 (by linarith [a'.2])
    linarith

end Verif
