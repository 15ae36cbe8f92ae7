import Verif.Lemmas.CioAcc
import Verif.Props.FramesSpec

/-!
# The celestial-to-intermediate matrix in binary64
-/

namespace Verif
open Arith F64 Spec Matrix

theorem sqrt_close {r a : ℝ} (r0 : 0 ≤ r) (a0 : 0 ≤ a) (a1 : a ≤ 1 / 100) (h : |r - a| ≤ a * (2 / 10 ^ 15) + 1 / 2 ^ 96) :
    |Real.sqrt r - Real.sqrt a| ≤ 1 / 10 ^ 14 := by
  have h1 : (Real.sqrt r - Real.sqrt a) * (Real.sqrt r + Real.sqrt a) = r - a := by
    have h2 := Real.mul_self_sqrt r0
    have h3 := Real.mul_self_sqrt a0
    linear_combination h2 - h3
  have s0 := Real.sqrt_nonneg r
  have t0 := Real.sqrt_nonneg a
  have ta : a = Real.sqrt a * Real.sqrt a := (Real.mul_self_sqrt a0).symm
  have t1 : Real.sqrt a ≤ 1 / 10 := by
    rw [Real.sqrt_le_iff]; norm_num at *; linarith
  generalize Real.sqrt r = u at *
  generalize Real.sqrt a = w at *
  have hab : |u - w| * (u + w) ≤ a * (2 / 10 ^ 15) + 1 / 2 ^ 96 := by
    rw [← abs_of_nonneg (add_nonneg s0 t0), ← abs_mul, h1]; exact h
  by_contra hc
  push Not at hc
  have hd : |u - w| ≤ u + w := by rw [abs_le]; constructor <;> linarith
  generalize |u - w| = δ at *
  have h4 : a ≤ (u + w) * (1 / 10) := by rw [ta]; nlinarith
  have h5 : (δ - 2 / 10 ^ 16) * (u + w) ≤ 1 / 2 ^ 96 := by
    have : a * (2 / 10 ^ 15) ≤ (u + w) * (1 / 10) * (2 / 10 ^ 15) := by gcongr
    norm_num at *
    linarith
  have h6 : (1 / 10 ^ 14 - 2 / 10 ^ 16 : ℝ) * (1 / 10 ^ 14) ≤ (δ - 2 / 10 ^ 16) * (u + w) :=
    mul_le_mul (by linarith) (by linarith) (by norm_num) (by norm_num at *; linarith)
  have := h6.trans h5
  norm_num at this

theorem arctan_lip (a b : ℝ) : |Real.arctan a - Real.arctan b| ≤ |a - b| := by
  have key : ∀ a b : ℝ, a ≤ b → Real.arctan b - Real.arctan a ≤ b - a := fun a b hab => by
    have hm : Antitone fun x : ℝ => Real.arctan x - x := by
      apply antitone_of_deriv_nonpos
      · exact Real.differentiable_arctan.sub differentiable_id
      · intro x
        have : deriv (fun x : ℝ => Real.arctan x - x) x = 1 / (1 + x ^ 2) - 1 := by
          rw [deriv_fun_sub Real.differentiable_arctan.differentiableAt differentiableAt_fun_id]
          simp
        rw [this]
        have : 1 / (1 + x ^ 2) ≤ 1 := by rw [div_le_one (by positivity)]; nlinarith [sq_nonneg x]
        linarith
    have := hm hab
    simp only at this
    linarith
  rcases le_total a b with h | h
  · have h1 := Real.arctan_mono h
    rw [abs_sub_comm, abs_of_nonneg (by linarith), abs_sub_comm, abs_of_nonneg (by linarith)]
    exact key a b h
  · have h1 := Real.arctan_mono h
    rw [abs_of_nonneg (by linarith), abs_of_nonneg (by linarith)]
    exact key b a h

section
variable {x y s : F64} {X Y S : ℚ}

/-- Square of the distance of the pole from the axis. -/
theorem r2_nb (hx : Is x X) (hy : Is y Y) {w : ℝ} (hw : w = (X : ℝ) ^ 2 + Y ^ 2) (hw1 : w ≤ 5 / 1000) :
    NB (x *. x +. y *. y) w (w * (6 / 10 ^ 16) + 1 / 2 ^ 98) w ∧ ∃ r : ℚ, Is (x *. x +. y *. y) r ∧ 0 ≤ r ∧ (r ≠ 0 → X ≠ 0 ∨ Y ≠ 0) := by
  have w0 : 0 ≤ w := by rw [hw]; positivity
  have bx : |(X : ℝ) * X| ≤ w := by rw [abs_of_nonneg (mul_self_nonneg _)]; nlinarith [sq_nonneg (Y : ℝ)]
  have bY : |(Y : ℝ) * Y| ≤ w := by rw [abs_of_nonneg (mul_self_nonneg _)]; nlinarith [sq_nonneg (X : ℝ)]
  have ix := hx.mul hx (huge_of_real (M := w) (by push_cast; exact bx) (by norm_num at *; linarith))
  have iy := hy.mul hy (huge_of_real (M := w) (by push_cast; exact bY) (by norm_num at *; linarith))
  have nx : NB (x *. x) ((X : ℝ) * X) (w / 2 ^ 53 + 1 / 2 ^ 100) w := by
    refine ⟨⟨_, ix, ?_⟩, bx⟩
    have := RN_err_real (x := X * X) (M := w) (by push_cast; exact bx)
    push_cast at this
    exact this
  have ny : NB (y *. y) ((Y : ℝ) * Y) (w / 2 ^ 53 + 1 / 2 ^ 100) w := by
    refine ⟨⟨_, iy, ?_⟩, bY⟩
    have := RN_err_real (x := Y * Y) (M := w) (by push_cast; exact bY)
    push_cast at this
    exact this
  have n := nx.add ny (E := w * (6 / 10 ^ 16) + 1 / 2 ^ 98) (M := 2 * w) ⟨by norm_num at *; linarith, by linarith, by norm_num at *; linarith⟩
  have e1 : (X : ℝ) * X + Y * Y = w := by rw [hw]; ring
  rw [e1] at n
  refine ⟨n.remag (by rw [abs_of_nonneg w0]), ?_⟩
  obtain ⟨r, hr, -⟩ := n.near
  refine ⟨r, hr, ?_, ?_⟩
  · have px := RN_nonneg (mul_self_nonneg X)
    have py := RN_nonneg (mul_self_nonneg Y)
    have hs : |RN (X * X) + RN (Y * Y)| ≤ HUGE := by
      apply small_le_HUGE
      obtain ⟨a, ha, ha', ha''⟩ := nx.exists_is
      obtain ⟨b, hb, hb', hb''⟩ := ny.exists_is
      rw [ix.unique ha, iy.unique hb]
      have : |((a + b : ℚ) : ℝ)| ≤ 1 := by
        push_cast
        refine (abs_add_le _ _).trans ?_
        norm_num at *
        linarith
      have h2 : |a + b| ≤ 1 := by exact_mod_cast this
      exact h2.trans (by norm_num)
    rw [hr.unique (ix.add iy hs)]
    exact RN_nonneg (add_nonneg px py)
  · intro hne
    by_contra hc
    push Not at hc
    obtain ⟨rfl, rfl⟩ := hc
    have w00 : w = 0 := by rw [hw]; norm_num
    have i0 : RN (0 * 0) = 0 := by rw [mul_zero]; exact RN_zero
    rw [i0] at ix iy
    have h3 := ix.add iy (by rw [add_zero, abs_zero]; exact HUGE_pos.le)
    rw [add_zero, RN_zero] at h3
    exact hne (hr.unique h3)

/-- The tilt angle. -/
theorem tilt_nb [Libm F64] (hL : LibmAcc) (hx : Is x X) (hy : Is y Y) {w : ℝ} (hw : w = (X : ℝ) ^ 2 + Y ^ 2)
    (hw1 : w ≤ 5 / 1000) :
    NB (Libm.atan (Arith.sqrt ((x *. x +. y *. y) /. (lit 1 -. (x *. x +. y *. y)))))
      (Real.arctan (Real.sqrt (w / (1 - w)))) (2 / 10 ^ 14) 1 := by
  have w0 : 0 ≤ w := by rw [hw]; positivity
  obtain ⟨n, r, hr, r0, -⟩ := r2_nb hx hy hw hw1
  generalize x *. x +. y *. y = r2 at *
  have n1 : NB (lit 1 -. r2) (1 - w) (4 / 10 ^ 16) 2 := by
    have := (NB.of_is' (a := 1) (M := 1) one_is (by norm_num) (by norm_num)).sub n (E := 4 / 10 ^ 16) (M := 2)
      ⟨by norm_num at *; linarith, by linarith, by norm_num at *; linarith⟩
    exact this
  have hb : (99 / 100 : ℝ) ≤ |1 - w| := by rw [abs_of_nonneg] <;> linarith
  have hq := n.div n1 (β := 99 / 100) (E := w * (2 / 10 ^ 15) + 1 / 2 ^ 96) (M := 1 / 100) hb (by norm_num)
    ⟨by norm_num at *; linarith, by norm_num at *; linarith, by norm_num at *; linarith⟩
  obtain ⟨q, iq, hq1, hq2⟩ := hq.exists_is
  obtain ⟨d, id, hd1, hd2⟩ := n1.exists_is
  have d0 : 0 < d := by
    have : (0 : ℝ) < d := by rw [abs_le] at hd1; norm_num at hd1; linarith
    exact_mod_cast this
  have a0 : 0 ≤ w / (1 - w) := div_nonneg w0 (by linarith)
  have aw : w ≤ w / (1 - w) := by rw [le_div_iff₀ (by linarith)]; nlinarith
  have a1 : w / (1 - w) ≤ 1 / 100 := by rw [div_le_iff₀ (by linarith)]; linarith
  have q0 : 0 ≤ q := by
    have hh : |r / d| ≤ HUGE := by
      have hrr : |(r : ℝ)| ≤ 1 := by
        obtain ⟨r', ir', hr1, hr2⟩ := n.exists_is
        rw [hr.unique ir']
        refine hr2.trans ?_
        norm_num at *; linarith
      have hdd : (1 / 2 : ℝ) ≤ d := by rw [abs_le] at hd1; norm_num at *; linarith
      apply huge_of_real (M := 2) _ (by norm_num)
      push_cast
      rw [abs_div, div_le_iff₀ (by rw [abs_of_nonneg] <;> linarith), abs_of_nonneg (by linarith : (0 : ℝ) ≤ d)]
      linarith
    rw [iq.unique (hr.div id d0.ne' hh)]
    exact RN_nonneg (div_nonneg r0 d0.le)
  have q0' : (0 : ℝ) ≤ q := by exact_mod_cast q0
  have hsq := sqrt_close q0' a0 a1 (hq1.trans (by linarith))
  obtain ⟨s', is', s0, hs⟩ := iq.sqrt q0
  have hs1 : Real.sqrt q ≤ 1 := by
    rw [Real.sqrt_le_iff]
    refine ⟨by norm_num, ?_⟩
    rw [one_pow]
    exact (le_abs_self _).trans (hq2.trans (by norm_num at *; linarith))
  have hs3 : |(s' : ℝ) - Real.sqrt (w / (1 - w))| ≤ 11 / 10 ^ 15 := by
    have e1 : (s' : ℝ) - Real.sqrt (w / (1 - w)) = (s' - Real.sqrt q) + (Real.sqrt q - Real.sqrt (w / (1 - w))) := by ring
    rw [e1]
    refine (abs_add_le _ _).trans ?_
    have : Real.sqrt q / 2 ^ 53 ≤ 1 / 2 ^ 53 := by gcongr
    norm_num at *
    linarith
  have sw1 : Real.sqrt (w / (1 - w)) ≤ 1 / 10 := by
    rw [Real.sqrt_le_iff]; norm_num at *; linarith
  have s'1 : |s'| ≤ 2 ^ 30 := by
    have : |(s' : ℝ)| ≤ 2 ^ 30 := by
      have e1 : (s' : ℝ) = (s' - Real.sqrt (w / (1 - w))) + Real.sqrt (w / (1 - w)) := by ring
      rw [e1]
      refine (abs_add_le _ _).trans ?_
      rw [abs_of_nonneg (Real.sqrt_nonneg _)]
      norm_num at *; linarith
    exact_mod_cast this
  have hat := hL.atan _ _ is' s'1
  refine ⟨(hat.shift ((arctan_lip _ _).trans hs3)).mono (by norm_num), ?_⟩
  have h0 := arctan_lip (Real.sqrt (w / (1 - w))) 0
  rw [Real.arctan_zero, sub_zero, sub_zero, abs_of_nonneg (Real.sqrt_nonneg _)] at h0
  linarith

/-- The product of the three rotations. -/
noncomputable def threeRot (E D S : ℝ) : Mat3 ℝ :=
  ((Mat3.identity.compose (Mat3.rotation 2 (-(E + S)))).compose (Mat3.rotation 1 D)).compose (Mat3.rotation 2 E)

theorem threeRot_toMatrix (E D S : ℝ) : (threeRot E D S).toMatrix
    = (Mat3.rotation 2 (-(E + S)) : Mat3 ℝ).toMatrix * (Mat3.rotation 1 D : Mat3 ℝ).toMatrix
      * (Mat3.rotation 2 E : Mat3 ℝ).toMatrix := by
  unfold threeRot
  rw [Mat3.toMatrix_compose, Mat3.toMatrix_compose, Mat3.toMatrix_compose, Mat3.toMatrix_identity, one_mul]

/-- Three float rotations. -/
theorem threeRot_acc [Libm F64] (hL : LibmAcc) {e d : F64} {E D S' : ℝ} (he : Ang e E (1 / 2 ^ 50) 12)
    (hd : NB d D (2 / 10 ^ 14) 1) (hs : Ang s S' 0 1) :
    MN (((Mat3.identity.compose (Mat3.rotation 2 (Arith.neg (e +. s)))).compose
      (Mat3.rotation 1 d)).compose (Mat3.rotation 2 e)) (threeRot E D S') (1 / 10 ^ 13) := by
  have h1 := (he.add hs (E := 3 / 10 ^ 15) (M := 14) (by norm_num)).neg
  have m1 := MN.rotAng hL h1 2 (E := 12 / 10 ^ 15) (by norm_num)
  have m2 := MN.rot hL hd 1 (E := 63 / 10 ^ 15) (by norm_num)
  have m3 := MN.rotAng hL he 2 (E := 6 / 10 ^ 15) (by norm_num)
  have r1 := IsRotation.rotation 2 (-(E + S'))
  have r2 := IsRotation.rotation 1 D
  have r3 := IsRotation.rotation 2 E
  have c1 := MN.identity.compose m1 IsRotation.identity r1 (E := 16 / 10 ^ 15) (by norm_num) (by norm_num) (by norm_num)
  have c2 := c1.compose m2 (IsRotation.identity.compose r1) r2 (E := 84 / 10 ^ 15) (by norm_num) (by norm_num) (by norm_num)
  exact c2.compose m3 ((IsRotation.identity.compose r1).compose r2) r3 (by norm_num) (by norm_num) (by norm_num)

/-- The model in real arithmetic. -/
theorem xys_threeRot (X Y S : ℝ) : celestialToIntermediateFromXys X Y S
    = threeRot (if 0 < X ^ 2 + Y ^ 2 then Complex.arg ⟨X, Y⟩ else 0)
        (Real.arctan (Real.sqrt ((X ^ 2 + Y ^ 2) / (1 - (X ^ 2 + Y ^ 2))))) S := by
  rw [show X ^ 2 + Y ^ 2 = X * X + Y * Y by ring]
  unfold celestialToIntermediateFromXys threeRot
  simp only [atan2_real, lit_real, add_real, mul_real, lt_real, div_real, sub_real, sqrt_real, atan_real, neg_real]
  norm_num

theorem rot1_near_one {D δ : ℝ} (h : |D| ≤ δ) : MB ((Mat3.rotation 1 D : Mat3 ℝ).toMatrix - 1) (3 * δ) := by
  have hs : |Real.sin D| ≤ δ := Real.abs_sin_le_abs.trans h
  have hc : |Real.cos D - 1| ≤ δ := by
    have := Real.abs_cos_sub_cos_le D 0
    rw [Real.cos_zero, sub_zero] at this
    exact this.trans h
  have d0 : 0 ≤ δ := (abs_nonneg _).trans h
  apply MB.of_entries
  rw [rot_R2]
  intro i j
  fin_cases i <;> fin_cases j <;> simp [R2, d0, hs, hc]

/-- With the pole this close to the axis the node does not matter. -/
theorem threeRot_node {E D S δ : ℝ} (h : |D| ≤ δ) :
    MB ((threeRot 0 D S).toMatrix - (threeRot E D S).toMatrix) (6 * δ) := by
  have h1 := rot1_near_one h
  have rs : ∀ t, MB ((Mat3.rotation 2 t : Mat3 ℝ).toMatrix) 1 := fun t => MB.of_rotation (IsRotation.rotation 2 t)
  have e1 : (Mat3.rotation 2 (-(E + S)) : Mat3 ℝ).toMatrix * (Mat3.rotation 2 E : Mat3 ℝ).toMatrix
      = (Mat3.rotation 2 (-(0 + S)) : Mat3 ℝ).toMatrix * (Mat3.rotation 2 0 : Mat3 ℝ).toMatrix := by
    have key : ∀ t u : ℝ, R3 t * R3 u = R3 (t + u) := fun t u => by
      ext i j
      fin_cases i <;> fin_cases j <;> simp [R3, Matrix.mul_apply, Fin.sum_univ_three, Real.cos_add, Real.sin_add] <;> ring
    rw [rot_R3, rot_R3, rot_R3, rot_R3, key, key]
    congr 1; ring
  rw [threeRot_toMatrix, threeRot_toMatrix]
  obtain ⟨F, hF⟩ : ∃ F, F = (Mat3.rotation 1 D : Mat3 ℝ).toMatrix - 1 := ⟨_, rfl⟩
  have hF' : (Mat3.rotation 1 D : Mat3 ℝ).toMatrix = 1 + F := by rw [hF]; abel
  rw [← hF] at h1
  rw [hF', mul_add, mul_add, mul_one, mul_one, add_mul, add_mul, e1, add_sub_add_left_eq_sub]
  have := (((rs (-(0 + S))).mul h1).mul (rs 0)).sub (((rs (-(E + S))).mul h1).mul (rs E))
  exact this.mono (by linarith)

/-- `celestial_to_intermediate_from_xys` in binary64. -/
theorem c2i_xys_acc [Libm F64] (hL : LibmAcc) (hx : Is x X) (hy : Is y Y) (hs : Is s S)
    (hw1 : (X : ℝ) ^ 2 + Y ^ 2 ≤ 5 / 1000) (hS : |(S : ℝ)| ≤ 1) :
    MN (celestialToIntermediateFromXys x y s) (celestialToIntermediateFromXys (X : ℝ) Y S) (2 / 10 ^ 13) := by
  obtain ⟨w, hw⟩ : ∃ w : ℝ, w = (X : ℝ) ^ 2 + Y ^ 2 := ⟨_, rfl⟩
  rw [xys_threeRot, ← hw]
  rw [← hw] at hw1
  have w0 : 0 ≤ w := by rw [hw]; positivity
  obtain ⟨n, r, hr, r0, hne⟩ := r2_nb hx hy hw hw1
  have hd := tilt_nb hL hx hy hw hw1
  have as : Ang s (S : ℝ) 0 1 := Ang.of_nb (NB.of_is hs hS) (by norm_num)
  unfold celestialToIntermediateFromXys
  simp only
  rw [zero_is.lt hr]
  rcases eq_or_lt_of_le r0 with h0 | h0
  · rw [← h0]
    have az : Ang (lit 0 : F64) 0 (1 / 2 ^ 50) 12 := Ang.of_nb (zero_nb.mono (E := 1 / 2 ^ 50) (M := 1) (by norm_num)) (by norm_num)
    have := threeRot_acc hL az hd as
    simp only [lt_irrefl, decide_false, Bool.false_eq_true, if_false]
    refine this.shift (threeRot_node (δ := 1 / 10 ^ 14) ?_) (by norm_num)
    have h2 := arctan_lip (Real.sqrt (w / (1 - w))) 0
    rw [Real.arctan_zero, sub_zero, sub_zero, abs_of_nonneg (Real.sqrt_nonneg _)] at h2
    refine h2.trans ?_
    obtain ⟨r', ir', hr1, -⟩ := n.exists_is
    rw [← hr.unique ir', ← h0] at hr1
    rw [Real.sqrt_le_iff]
    refine ⟨by norm_num, ?_⟩
    rw [div_le_iff₀ (by linarith)]
    rw [abs_le] at hr1
    norm_num at hr1
    norm_num
    linarith
  · simp only [h0, decide_true, if_true]
    have h3 := hne h0.ne'
    have w1 : 0 < w := by
      rw [hw]
      rcases h3 with h | h
      · have : (X : ℝ) ≠ 0 := by exact_mod_cast h
        positivity
      · have : (Y : ℝ) ≠ 0 := by exact_mod_cast h
        positivity
    rw [if_pos w1]
    obtain ⟨k, hk, q, iq, hq⟩ := hL.atan2 y x Y X hy hx h3
    have ae : Ang (Libm.atan2 y x) (Complex.arg ⟨X, Y⟩) (1 / 2 ^ 50) 12 := by
      refine ⟨q, iq, ⟨-k, by convert hq using 2; push_cast; ring⟩, ?_⟩
      have e1 : (q : ℝ) = (q - (Complex.arg ⟨X, Y⟩ + k * (2 * Real.pi))) + (Complex.arg ⟨X, Y⟩ + k * (2 * Real.pi)) := by ring
      rw [e1]
      have p1 := Real.pi_lt_d2
      have p0 := Real.pi_pos
      have ha := Complex.abs_arg_le_pi ⟨X, Y⟩
      have hk' : |(k : ℝ) * (2 * Real.pi)| ≤ 2 * Real.pi := by
        rw [abs_mul, abs_of_pos (by positivity : 0 < 2 * Real.pi)]
        have : |(k : ℝ)| ≤ 1 := by exact_mod_cast hk
        nlinarith
      refine (abs_add_le _ _).trans ?_
      have := abs_add_le (Complex.arg ⟨X, Y⟩) (k * (2 * Real.pi))
      norm_num at hq p1 ⊢
      linarith
    exact (threeRot_acc hL ae hd as).mono (by norm_num)

end

/-- How the matrix depends on its arguments. -/
theorem c2i_sens {X Y S X' Y' S' e es : ℝ} (hX : |X| ≤ 1 / 20) (hY : |Y| ≤ 1 / 20) (hX' : |X'| ≤ 1 / 20)
    (hY' : |Y'| ≤ 1 / 20) (dX : |X - X'| ≤ e) (dY : |Y - Y'| ≤ e) (dS : |S - S'| ≤ es) :
    MB ((celestialToIntermediateFromXys X Y S).toMatrix - (celestialToIntermediateFromXys X' Y' S').toMatrix)
      (3 * es + 3 * e + 3 * es * (3 * e)) := by
  have e0 : 0 ≤ e := (abs_nonneg _).trans dX
  have es0 : 0 ≤ es := (abs_nonneg _).trans dS
  have sq1 : ∀ {x : ℝ}, |x| ≤ 1 / 20 → x ^ 2 ≤ 1 / 400 := fun {x} h => by
    rw [← sq_abs]; nlinarith [abs_nonneg x]
  have hw : X ^ 2 + Y ^ 2 ≤ 1 / 200 := by linarith [sq1 hX, sq1 hY]
  have hw' : X' ^ 2 + Y' ^ 2 ≤ 1 / 200 := by linarith [sq1 hX', sq1 hY']
  rw [C63_cio_matrix X Y S (by linarith), C63_cio_matrix X' Y' S' (by linarith)]
  have key : ∀ {p q p' q' c c' : ℝ}, |p| ≤ 1 / 20 → |q| ≤ 1 / 20 → |p'| ≤ 1 / 20 → |q'| ≤ 1 / 20 → |p - p'| ≤ e →
      |q - q'| ≤ e → |c| ≤ 1 → |c - c'| ≤ e / 5 → |c * (p * q) - c' * (p' * q')| ≤ e / 5 :=
    fun {p q p' q' c c'} hp hq hp' hq' dp dq hc dc => by
      have e1 : c * (p * q) - c' * (p' * q') = c * ((p - p') * q + p' * (q - q')) + (c - c') * (p' * q') := by ring
      rw [e1]
      refine (abs_add_le _ _).trans ?_
      rw [abs_mul, abs_mul]
      have g1 : |(p - p') * q + p' * (q - q')| ≤ e / 10 := by
        refine (abs_add_le _ _).trans ?_
        rw [abs_mul, abs_mul]
        have := mul_le_mul dp hq (abs_nonneg _) e0
        have := mul_le_mul hp' dq (abs_nonneg _) (by norm_num)
        linarith
      have g2 : |p' * q'| ≤ 1 / 400 := by
        rw [abs_mul]
        have := mul_le_mul hp' hq' (abs_nonneg _) (by norm_num)
        linarith
      have g3 := mul_le_mul hc g1 (abs_nonneg _) (by norm_num)
      have g4 := mul_le_mul dc g2 (abs_nonneg _) (by positivity)
      linarith
  obtain ⟨a, ha⟩ : ∃ a, a = 1 / (1 + Real.sqrt (1 - (X ^ 2 + Y ^ 2))) := ⟨_, rfl⟩
  obtain ⟨a', ha'⟩ : ∃ a, a = 1 / (1 + Real.sqrt (1 - (X' ^ 2 + Y' ^ 2))) := ⟨_, rfl⟩
  have a1 : |a| ≤ 1 := by
    rw [ha, abs_of_nonneg (by positivity), div_le_one (by positivity)]
    linarith [Real.sqrt_nonneg (1 - (X ^ 2 + Y ^ 2))]
  have da : |a - a'| ≤ e / 5 := by
    have u1 := Real.mul_self_sqrt (show 0 ≤ 1 - (X ^ 2 + Y ^ 2) by linarith)
    have u1' := Real.mul_self_sqrt (show 0 ≤ 1 - (X' ^ 2 + Y' ^ 2) by linarith)
    have u0 := Real.sqrt_nonneg (1 - (X ^ 2 + Y ^ 2))
    have u0' := Real.sqrt_nonneg (1 - (X' ^ 2 + Y' ^ 2))
    have u2 : 1 / 2 ≤ Real.sqrt (1 - (X ^ 2 + Y ^ 2)) := Real.le_sqrt_of_sq_le (by norm_num; linarith)
    have u2' : 1 / 2 ≤ Real.sqrt (1 - (X' ^ 2 + Y' ^ 2)) := Real.le_sqrt_of_sq_le (by norm_num; linarith)
    rw [ha, ha']
    generalize Real.sqrt (1 - (X ^ 2 + Y ^ 2)) = u at *
    generalize Real.sqrt (1 - (X' ^ 2 + Y' ^ 2)) = u' at *
    have e1 : 1 / (1 + u) - 1 / (1 + u') = (u' - u) / ((1 + u) * (1 + u')) := by field_simp; ring
    have e2 : (u' - u) * (u' + u) = (X - X') * (X + X') + (Y - Y') * (Y + Y') := by linear_combination u1' - u1
    have e3 : |(X - X') * (X + X') + (Y - Y') * (Y + Y')| ≤ e / 5 := by
      refine (abs_add_le _ _).trans ?_
      rw [abs_mul, abs_mul]
      have b1 : |X + X'| ≤ 1 / 10 := (abs_add_le _ _).trans (by linarith)
      have b2 : |Y + Y'| ≤ 1 / 10 := (abs_add_le _ _).trans (by linarith)
      have := mul_le_mul dX b1 (abs_nonneg _) e0
      have := mul_le_mul dY b2 (abs_nonneg _) e0
      linarith
    have e4 : |u' - u| ≤ e / 5 := by
      rw [← e2, abs_mul, abs_of_nonneg (by linarith : 0 ≤ u' + u)] at e3
      nlinarith [abs_nonneg (u' - u)]
    rw [e1, abs_div, div_le_iff₀ (by positivity), abs_of_nonneg (by positivity : 0 ≤ (1 + u) * (1 + u'))]
    have : 1 ≤ (1 + u) * (1 + u') := by nlinarith
    nlinarith
  simp only [← ha, ← ha']
  have mA : MB (R3 (-S')) 1 := by rw [← rot_R3]; exact MB.of_rotation (IsRotation.rotation 2 _)
  have mB : MB (!![1 - a' * X' ^ 2, -a' * X' * Y', X'; -a' * X' * Y', 1 - a' * Y' ^ 2, Y'; -X', -Y',
      1 - a' * (X' ^ 2 + Y' ^ 2)]ᵀ) 1 := by
    have h1 := C63_cio_matrix X' Y' 0 (by linarith)
    simp only [← ha'] at h1
    have h2 : R3 (-(0 : ℝ)) = 1 := by
      ext i j
      fin_cases i <;> fin_cases j <;> simp [R3]
    rw [h2, one_mul] at h1
    rw [← h1]
    exact MB.of_rotation (rotation_xys _ _ _)
  refine mul_diff mA mB (MB.of_entries ?_) (MB.of_entries ?_)
  · have hs : |Real.sin S - Real.sin S'| ≤ es := (Real.abs_sin_sub_sin_le _ _).trans dS
    have hc : |Real.cos S - Real.cos S'| ≤ es := (Real.abs_cos_sub_cos_le _ _).trans dS
    have hs' : |Real.sin S' - Real.sin S| ≤ es := by rw [abs_sub_comm]; exact hs
    intro i j
    fin_cases i <;> fin_cases j <;> simp [R3, es0, hs, hc, neg_add_eq_sub, hs']
  · have kxx := key hX hX hX' hX' dX dX a1 da
    have kxy := key hX hY hX' hY' dX dY a1 da
    have kyy := key hY hY hY' hY' dY dY a1 da
    rw [abs_le] at dX dY kxx kxy kyy
    intro i j
    rw [abs_le]
    fin_cases i <;> fin_cases j <;> simp <;> constructor <;> linarith

/-- The pole coordinates are small. -/
theorem pole_small {a b : ℝ} (h : |a + b - 2451545| ≤ 36525) :
    |(precessionNutation (a, b)).get 2 0| ≤ 1 / 40 ∧ |(precessionNutation (a, b)).get 2 1| ≤ 1 / 40 := by
  have h1 := (C39_within_century a b h).2
  constructor
  · apply abs_le_of_sq_le_sq _ (by norm_num)
    have : (precessionNutation (a, b)).get 2 0 = (precessionNutation (a, b)).r2.x := rfl
    rw [this]
    norm_num at h1 ⊢
    nlinarith [sq_nonneg (precessionNutation (a, b)).r2.y]
  · apply abs_le_of_sq_le_sq _ (by norm_num)
    have : (precessionNutation (a, b)).get 2 1 = (precessionNutation (a, b)).r2.y := rfl
    rw [this]
    norm_num at h1 ⊢
    nlinarith [sq_nonneg (precessionNutation (a, b)).r2.x]

/-- `celestial_to_intermediate` in binary64. -/
theorem c2i_acc [Libm F64] (hL : LibmAcc) {tt : F64 × F64} {a b : ℝ} (h : |a + b - 2451545| ≤ 36525)
    (hT : NB (centuries tt) (centuries (a, b)) (3 / 10 ^ 14) 1) :
    MN (celestialToIntermediate tt) (celestialToIntermediate (a, b)) (7 / 10 ^ 12) := by
  have hm := bpn_acc hL hT
  obtain ⟨px, py⟩ := pole_small h
  have nx := hm.entry 2 0
  have ny := hm.entry 2 1
  have hC := C66_locator_series a b ((precessionNutation (a, b)).get 2 0) ((precessionNutation (a, b)).get 2 1)
  rw [centuries_real] at hT
  have ht : |(a + b - 2451545) / 36525| ≤ 1 := hT.mag
  simp only at hC
  unfold celestialToIntermediate celestialToIntermediateBpn celestialToIntermediateXY xyFromBpn
  simp only
  generalize (precessionNutation tt).get 2 0 = x at *
  generalize (precessionNutation tt).get 2 1 = y at *
  generalize (precessionNutation (a, b)).get 2 0 = X at *
  generalize (precessionNutation (a, b)).get 2 1 = Y at *
  have hs := cio_acc hL hT ⟨nx, px⟩ ⟨ny, py⟩ (by norm_num)
  generalize cio tt x y = s at *
  generalize cio (a, b) X Y = S at *
  generalize (a + b - 2451545) / 36525 = t at *
  obtain ⟨X', ix, dx⟩ := nx
  obtain ⟨Y', iy, dy⟩ := ny
  obtain ⟨S', is, ds, ms⟩ := hs.exists_is
  have hC' : |S + X * Y / 2 - s00 t| ≤ 1 / 10 ^ 20 := by
    refine hC.trans ?_
    have : (1 + |t|) ^ 6 ≤ 2 ^ 6 := by gcongr; linarith
    calc _ ≤ 1 / 10 ^ 23 * (2 : ℝ) ^ 6 := by gcongr
      _ ≤ _ := by norm_num
  have bx' : |(X' : ℝ)| ≤ 1 / 20 := by
    have e1 : (X' : ℝ) = (X' - X) + X := by ring
    rw [e1]
    refine (abs_add_le _ _).trans ?_
    norm_num at dx px ⊢; linarith
  have by' : |(Y' : ℝ)| ≤ 1 / 20 := by
    have e1 : (Y' : ℝ) = (Y' - Y) + Y := by ring
    rw [e1]
    refine (abs_add_le _ _).trans ?_
    norm_num at dy py ⊢; linarith
  have sq1 : ∀ {x : ℝ}, |x| ≤ 1 / 20 → x ^ 2 ≤ 1 / 400 := fun {x} h => by
    rw [← sq_abs]; nlinarith [abs_nonneg x]
  have m1 := c2i_xys_acc hL ix iy is (by linarith [sq1 bx', sq1 by']) (ms.trans (by norm_num))
  have dS : |(S' : ℝ) - S| ≤ 11 / 10 ^ 14 := by
    have e1 : (S' : ℝ) - S = (S' - (s00 t - X * Y / 2)) - (S + X * Y / 2 - s00 t) := by ring
    rw [e1]
    refine (abs_sub _ _).trans ?_
    norm_num at ds hC' ⊢; linarith
  refine m1.shift (c2i_sens bx' by' (px.trans (by norm_num)) (py.trans (by norm_num)) dx dy dS) (by norm_num)

end Verif
