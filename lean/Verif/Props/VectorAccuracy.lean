import Verif.Lemmas.AngleAcc

/-!
# Vectors: sums and differences, and accuracy of length, direction and angle in binary64
-/

namespace Verif
open Arith F64

/-- **C69.** Vectors form a group under the code's addition, with its difference and negation, and scaling scales
the length, in exact arithmetic. -/
theorem C69_vector_group (u v w : Vec3 ℝ) (c : ℝ) :
    (u.sub v).add v = u ∧ u.add v = v.add u ∧ (u.add v).add w = u.add (v.add w) ∧ u.add u.neg = ⟨0, 0, 0⟩ ∧
    u.neg = (⟨0, 0, 0⟩ : Vec3 ℝ).sub u ∧ (u.add v).scale c = (u.scale c).add (v.scale c) ∧ (u.scale c).norm = |c| * u.norm ∧
    u.add u = u.scale 2 := by
  refine ⟨?_, ?_, ?_, ?_, ?_, ?_, ?_, ?_⟩
  iterate 6 (ext <;> simp [Vec3.add, Vec3.sub, Vec3.neg, Vec3.scale] <;> ring)
  · rw [norm_real, norm_real, ← Real.sqrt_sq_eq_abs, ← Real.sqrt_mul (sq_nonneg c)]
    congr 1
    simp only [Vec3.scale, mul_real]
    ring
  · ext <;> simp [Vec3.add, Vec3.scale] <;> ring

/-- **C69.** In `f64` every component of a difference is the correctly rounded exact difference, for all finite
components whose difference does not overflow. -/
theorem C69_vector_sub_f64 (u v : Vec3 F64) (a b c a' b' c' : ℚ) (hx : Is u.x a) (hy : Is u.y b) (hz : Is u.z c)
    (hx' : Is v.x a') (hy' : Is v.y b') (hz' : Is v.z c') (h1 : |a - a'| ≤ HUGE) (h2 : |b - b'| ≤ HUGE)
    (h3 : |c - c'| ≤ HUGE) :
    Is (u.sub v).x (RN (a - a')) ∧ Is (u.sub v).y (RN (b - b')) ∧ Is (u.sub v).z (RN (c - c')) :=
  ⟨hx.sub hx' h1, hy.sub hy' h2, hz.sub hz' h3⟩

example : Is (lit 1 : F64) 1 ∧ Is (lit (-2) : F64) (-2) ∧ |(1 : ℚ) - (-2)| ≤ HUGE := by
  refine ⟨by have := Is.lit_int 1 (by norm_num); push_cast at this; exact this,
    by have := Is.lit_int (-2) (by norm_num); push_cast at this; exact this, small_le_HUGE (by norm_num)⟩

/-- **C69.** For every pair of finite float vectors of lengths between `1e-3` and `1e13`: the computed length has a
relative error of at most `1e-15`; every component of the normalised vector is within `1.3e-15` of the exact one; and
the cosine inside `angle` is within `1e-14` of the exact cosine. -/
theorem C69_norm_normalize_f64 (v w : Vec3 F64) (a b c a' b' c' : ℚ) (hx : Is v.x a) (hy : Is v.y b) (hz : Is v.z c)
    (hx' : Is w.x a') (hy' : Is w.y b') (hz' : Is w.z c') (L L' : ℝ)
    (hL : L = Real.sqrt ((a : ℝ) ^ 2 + b ^ 2 + c ^ 2)) (hL' : L' = Real.sqrt ((a' : ℝ) ^ 2 + b' ^ 2 + c' ^ 2))
    (h1 : 1 / 1000 ≤ L) (h2 : L ≤ 10 ^ 13) (h1' : 1 / 1000 ≤ L') (h2' : L' ≤ 10 ^ 13) :
    Near v.norm L (1 / 10 ^ 15 * L) ∧
    Near v.normalize.x (a / L) (13 / 10 ^ 16) ∧ Near v.normalize.y (b / L) (13 / 10 ^ 16) ∧
    Near v.normalize.z (c / L) (13 / 10 ^ 16) ∧
    Near (v.normalize.dot w.normalize) ((a * a' + b * b' + c * c') / (L * L')) (10 / 10 ^ 15) := by
  have e : VIs v ⟨a, b, c⟩ := ⟨⟨a, hx, rfl⟩, ⟨b, hy, rfl⟩, ⟨c, hz, rfl⟩⟩
  have e' : VIs w ⟨a', b', c'⟩ := ⟨⟨a', hx', rfl⟩, ⟨b', hy', rfl⟩, ⟨c', hz', rfl⟩⟩
  have n : (⟨a, b, c⟩ : Vec3 ℝ).norm = L := by rw [norm_real, hL]
  have n' : (⟨a', b', c'⟩ : Vec3 ℝ).norm = L' := by rw [norm_real, hL']
  obtain ⟨p, q, r⟩ := normalize_acc e n h1 h2
  have k := cosine_acc e e' (by rw [n]; exact h1) (by rw [n]; exact h2) (by rw [n']; exact h1') (by rw [n']; exact h2')
  rw [n, n'] at k
  exact ⟨(norm_acc e n h1 h2).near, p.near, q.near, r.near, k⟩

/-- **C69.** For every pair of finite float vectors of lengths between `1e-3` and `1e13` whose exact angle `θ` has a
sine of at least `1e-6`, and every library accurate to `2^-50`, the computed angle is finite and within
`1.02e-14 / sin θ + 2^-50` of `θ`.  (For parallel vectors it can be NaN: C28.) -/
theorem C69_angle_f64 [Libm F64] (hL : LibmAcc) (v w : Vec3 F64) (a b c a' b' c' : ℚ) (hx : Is v.x a) (hy : Is v.y b)
    (hz : Is v.z c) (hx' : Is w.x a') (hy' : Is w.y b') (hz' : Is w.z c') (L L' θ : ℝ)
    (hl : L = Real.sqrt ((a : ℝ) ^ 2 + b ^ 2 + c ^ 2)) (hl' : L' = Real.sqrt ((a' : ℝ) ^ 2 + b' ^ 2 + c' ^ 2))
    (h1 : 1 / 1000 ≤ L) (h2 : L ≤ 10 ^ 13) (h1' : 1 / 1000 ≤ L') (h2' : L' ≤ 10 ^ 13)
    (t0 : 0 ≤ θ) (t1 : θ ≤ Real.pi) (ht : L * L' * Real.cos θ = a * a' + b * b' + c * c') (hs : 1 / 10 ^ 6 ≤ Real.sin θ) :
    Near (v.angle w) θ (1.02 / 10 ^ 14 / Real.sin θ + 1 / 2 ^ 50) := by
  obtain ⟨-, -, -, -, r, ir, er⟩ := C69_norm_normalize_f64 v w a b c a' b' c' hx hy hz hx' hy' hz' L L' hl hl' h1 h2 h1' h2'
  have hc : ((a : ℝ) * a' + b * b' + c * c') / (L * L') = Real.cos θ := by
    rw [← ht]
    have : L ≠ 0 := by intro h; rw [h] at h1; norm_num at h1
    have : L' ≠ 0 := by intro h; rw [h] at h1'; norm_num at h1'
    field_simp
  rw [hc] at er
  obtain ⟨g1, g2⟩ := arccos_close t0 t1 (by linarith [show (0 : ℝ) < 1 / 10 ^ 6 by norm_num]) er (by
    have : (1 / 10 ^ 6 : ℝ) ^ 2 ≤ (Real.sin θ) ^ 2 := pow_le_pow_left₀ (by norm_num) hs 2
    norm_num at this ⊢; linarith)
  have := hL.acos _ r ir (by exact_mod_cast g1)
  refine (this.shift g2).mono (le_of_eq ?_)
  norm_num; ring

/-- The hypotheses hold for the coordinate axes `x` and `y` and a library that exists. -/
example : ∃ L : Libm F64, @LibmAcc L ∧ ∃ o z : F64, Is o 1 ∧ Is z 0 ∧
    (1 : ℝ) = Real.sqrt (((1 : ℚ) : ℝ) ^ 2 + ((0 : ℚ) : ℝ) ^ 2 + ((0 : ℚ) : ℝ) ^ 2) ∧
    1 * 1 * Real.cos (Real.pi / 2) = ((1 : ℚ) : ℝ) * ((0 : ℚ) : ℝ) + ((0 : ℚ) : ℝ) * ((1 : ℚ) : ℝ) + ((0 : ℚ) : ℝ) * ((0 : ℚ) : ℝ) ∧
    1 / 10 ^ 6 ≤ Real.sin (Real.pi / 2) := by
  refine ⟨goodLibm, exists_libmAcc, lit 1, lit 0, ?_, ?_, by norm_num, by norm_num, by norm_num⟩
  · have := Is.lit_int 1 (by norm_num); norm_num at this; exact this
  · have := Is.lit_int 0 (by norm_num); norm_num at this; exact this

end Verif
