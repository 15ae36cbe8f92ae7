import Verif.Lemmas.AngleAcc
import Verif.Lemmas.TerAcc
import Verif.Lemmas.EpvFrom
import Verif.Props.GeodeticAccuracy
import Verif.Props.SunAngleTime

/-!
# The Sun angle calculator in binary64: ingredients
-/

namespace Verif
open Arith F64 Spec Matrix

/-! ## Directions -/

section
variable {F : Type*} [NormedAddCommGroup F] [InnerProductSpace ℝ F]

/-- Normalised vectors. -/
theorem unit_close {x y : F} (hx : x ≠ 0) (hy : y ≠ 0) : ‖‖x‖⁻¹ • x - ‖y‖⁻¹ • y‖ ≤ 2 * (‖x - y‖ / ‖y‖) := by
  have nx : 0 < ‖x‖ := norm_pos_iff.mpr hx
  have ny : 0 < ‖y‖ := norm_pos_iff.mpr hy
  have e : ‖x‖⁻¹ • x - ‖y‖⁻¹ • y = (‖x‖⁻¹ - ‖y‖⁻¹) • x + ‖y‖⁻¹ • (x - y) := by
    rw [sub_smul, smul_sub]; abel
  rw [e]
  refine (norm_add_le _ _).trans ?_
  rw [norm_smul, norm_smul, Real.norm_eq_abs, Real.norm_eq_abs, abs_of_pos (inv_pos.mpr ny)]
  have h1 : |‖x‖⁻¹ - ‖y‖⁻¹| * ‖x‖ = |‖y‖ - ‖x‖| / ‖y‖ := by
    rw [inv_sub_inv nx.ne' ny.ne', abs_div, abs_of_pos (mul_pos nx ny)]
    field_simp
  have h2 : |‖y‖ - ‖x‖| ≤ ‖x - y‖ := by rw [abs_sub_comm]; exact abs_norm_sub_norm_le x y
  have h3 : |‖y‖ - ‖x‖| / ‖y‖ ≤ ‖x - y‖ / ‖y‖ := by gcongr
  rw [h1, two_mul, inv_mul_eq_div]
  linarith

/-- The cosine of the angle between nearby pairs of vectors. -/
theorem cosine_close {x y v w : F} (hx : x ≠ 0) (hy : y ≠ 0) (hv : v ≠ 0) (hw : w ≠ 0) :
    |inner ℝ x v / (‖x‖ * ‖v‖) - inner ℝ y w / (‖y‖ * ‖w‖)| ≤ 2 * (‖x - y‖ / ‖y‖) + 2 * (‖v - w‖ / ‖w‖) := by
  have nx : 0 < ‖x‖ := norm_pos_iff.mpr hx
  have ny : 0 < ‖y‖ := norm_pos_iff.mpr hy
  have nv : 0 < ‖v‖ := norm_pos_iff.mpr hv
  have nw : 0 < ‖w‖ := norm_pos_iff.mpr hw
  have e : ∀ a b : F, inner ℝ a b / (‖a‖ * ‖b‖) = inner ℝ (‖a‖⁻¹ • a) (‖b‖⁻¹ • b) := fun a b => by
    rw [real_inner_smul_left, real_inner_smul_right, div_eq_mul_inv, mul_inv]; ring
  rw [e, e]
  have h1 := unit_close hx hy
  have h2 := unit_close hv hw
  have u1 : ‖‖v‖⁻¹ • v‖ = 1 := by rw [norm_smul, norm_inv, norm_norm]; field_simp
  have u2 : ‖‖y‖⁻¹ • y‖ = 1 := by rw [norm_smul, norm_inv, norm_norm]; field_simp
  generalize ‖x‖⁻¹ • x = X at *
  generalize ‖y‖⁻¹ • y = Y at *
  generalize ‖v‖⁻¹ • v = V at *
  generalize ‖w‖⁻¹ • w = W at *
  have d : inner ℝ X V - inner ℝ Y W = inner ℝ (X - Y) V + inner ℝ Y (V - W) := by
    rw [inner_sub_left, inner_sub_right]; ring
  rw [d]
  refine (abs_add_le _ _).trans (add_le_add ((abs_real_inner_le_norm _ _).trans ?_) ((abs_real_inner_le_norm _ _).trans ?_))
  · rw [u1, mul_one]; exact h1
  · rw [u2, one_mul]; exact h2
end

theorem norm_toVec (v : Vec3 ℝ) : v.norm = len v.toVec := by
  rw [norm_real]; rfl

/-- The same for the vectors of the model. -/
theorem vec_cosine_close {Z z S s : Vec3 ℝ} (hZ : 0 < Z.norm) (hz : 0 < z.norm) (hS : 0 < S.norm) (hs : 0 < s.norm) :
    |(Z.x * S.x + Z.y * S.y + Z.z * S.z) / (Z.norm * S.norm) - (z.x * s.x + z.y * s.y + z.z * s.z) / (z.norm * s.norm)| ≤
      2 * (len (Z.toVec - z.toVec) / z.norm) + 2 * (len (S.toVec - s.toVec) / s.norm) := by
  have ne : ∀ v : Vec3 ℝ, 0 < v.norm → WithLp.toLp 2 v.toVec ≠ 0 := fun v hv h => by
    rw [norm_toVec, len_eq, h, norm_zero] at hv
    exact lt_irrefl _ hv
  have h := cosine_close (ne Z hZ) (ne z hz) (ne S hS) (ne s hs)
  have ei : ∀ a b : Vec3 ℝ, inner ℝ (WithLp.toLp 2 a.toVec) (WithLp.toLp 2 b.toVec) = a.x * b.x + a.y * b.y + a.z * b.z := by
    intro a b
    rw [PiLp.inner_apply, Fin.sum_univ_three]
    simp [Vec3.toVec]
    ring
  rw [ei, ei, ← WithLp.toLp_sub, ← WithLp.toLp_sub] at h
  simp only [← len_eq, ← norm_toVec] at h
  exact h

/-! ## Delta AT -/

/-- The value of the selected row, in exact arithmetic. -/
theorem deltaAt_row_real (p : Profile) (d : GregorianDate) (fd : ℝ) (hd : GoodDate d) (hy : 1960 ≤ d.year)
    (h0 : 0 ≤ fd) (h1 : fd ≤ 1) :
    let e := (datRow (monthNo d.year d.month)).step
    deltaAt p d fd = .ok (.ok (some (e.offset + (mjdN d.year d.month d.day + fd - e.origin) * e.rate))) := by
  have hm1 : 1 ≤ d.month := hd.civil.1
  have hm2 : d.month ≤ 12 := hd.civil.2.1
  have hyl := hd.year_le
  intro e
  rw [deltaAt_some p d fd (by simp [h0, h1]) hy (by omega) ⟨hm1, hm2⟩]
  by_cases hc : monthNo d.year d.month ≤ 23665
  · obtain ⟨o, r, er, -⟩ := datRow_drift _ (by unfold monthNo; omega) hc
    have e1 : e.offset = (datRow (monthNo d.year d.month)).dat := rfl
    have e2 : e.origin = o := by show (((datRow (monthNo d.year d.month)).drift).getD (0, 0)).1 = o; rw [er]; rfl
    have e3 : e.rate = r := by show (((datRow (monthNo d.year d.month)).drift).getD (0, 0)).2 = r; rw [er]; rfl
    rw [er]
    simp only
    rw [toJulian_of_day (hd.day p)]
    simp only [ok_bind, e1, e2, e3]
    simp
    rfl
  · obtain ⟨er, -⟩ := datRow_integer (monthNo d.year d.month) (by omega)
    have e1 : e.offset = (datRow (monthNo d.year d.month)).dat := rfl
    have e3 : e.rate = 0 := by show (((datRow (monthNo d.year d.month)).drift).getD (0, 0)).2 = 0; rw [er]; rfl
    rw [er]
    simp [e1, e3]

theorem datRow_rate (m : ℤ) (h : 23521 ≤ m) : 0 ≤ (datRow m).step.rate ∧ (datRow m).step.rate ≤ 26 / 10000 := by
  by_cases hc : m ≤ 23665
  · obtain ⟨o, r, er, -, r0, r1, -⟩ := datRow_drift _ h hc
    have e3 : (datRow m).step.rate = r := by show (((datRow m).drift).getD (0, 0)).2 = r; rw [er]; rfl
    rw [e3]; exact ⟨r0, r1⟩
  · obtain ⟨er, -⟩ := datRow_integer m (by omega)
    have e3 : (datRow m).step.rate = 0 := by show (((datRow m).drift).getD (0, 0)).2 = 0; rw [er]; rfl
    rw [e3]; norm_num

/-- Delta AT in binary64 and in exact arithmetic, at nearby fractions of the day. -/
theorem dat_close (p : Profile) (d : GregorianDate) (hd : GoodDate d) (hy : 1960 ≤ d.year) {fd v : F64} {f : ℚ} (h : Is fd f)
    (h0 : 0 ≤ f) (h1 : f ≤ 1) {g w : ℝ} (g0 : 0 ≤ g) (g1 : g ≤ 1) (hg : |(f : ℝ) - g| ≤ 3 / 2 ^ 53)
    (hv : deltaAt p d fd = .ok (.ok (some v))) (hw : deltaAt p d g = .ok (.ok (some w))) :
    ∃ x : ℚ, Is v x ∧ |(x : ℝ) - w| ≤ 1 / 10 ^ 12 := by
  have hyl := hd.year_le
  obtain ⟨v', hv', x, hx, hxn⟩ := deltaAt_row p d fd f hd.civil hy (by omega) h h0 h1
  rw [hv] at hv'
  obtain rfl := Option.some.inj (Except.ok.inj (Except.ok.inj hv'))
  have hw' := deltaAt_row_real p d g hd hy g0 g1
  simp only at hw'
  rw [hw] at hw'
  have ew := Option.some.inj (Except.ok.inj (Except.ok.inj hw'))
  refine ⟨x, hx, ?_⟩
  have hm1 : 1 ≤ d.month := hd.civil.1
  obtain ⟨r0, r1⟩ := datRow_rate (monthNo d.year d.month) (by unfold monthNo; omega)
  have r0' : (0 : ℝ) ≤ ((datRow (monthNo d.year d.month)).step.rate : ℚ) := by exact_mod_cast r0
  have r1' : ((datRow (monthNo d.year d.month)).step.rate : ℝ) ≤ 26 / 10000 := by
    have := (Rat.cast_le (K := ℝ)).mpr r1; push_cast at this; exact this
  unfold Step.value at hxn
  rw [ew]
  push_cast at hxn
  generalize (datRow (monthNo d.year d.month)).step = e at *
  have k : (x : ℝ) - (e.offset + (mjdN d.year d.month d.day + g - e.origin) * e.rate) =
    ((x : ℝ) - (e.offset + (mjdN d.year d.month d.day + f - e.origin) * e.rate)) + (f - g) * e.rate := by ring
  rw [k]
  refine (abs_add_le _ _).trans ?_
  rw [abs_mul, abs_of_nonneg r0']
  have := mul_le_mul hg r1' r0' (by norm_num)
  norm_num at this hxn ⊢
  linarith

end Verif
