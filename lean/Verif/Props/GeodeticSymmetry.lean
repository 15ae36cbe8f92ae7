import Verif.Props.Ellipsoid

/-!
# C127: symmetries of `geodetic_to_geocentric`
-/

namespace Verif
open Arith EllipsoidConverter

/-- **C127.** In exact arithmetic a change of longitude turns the position and the vertical about the polar axis, eastwards, by the
elementary rotation of the library. -/
theorem C127_longitude (a f : ℝ) (c : EllipsoidConverter ℝ) (hc : EllipsoidConverter.new ⟨a, f⟩ = .ok c) (l phi h t : ℝ) :
    (∃ v, c.geodeticToGeocentric ⟨l, phi, h⟩ = .ok v ∧
      c.geodeticToGeocentric ⟨l + t, phi, h⟩ = .ok ((Mat3.rotation 2 t).apply v)) ∧
    (Geodetic.mk (l + t) phi h).zenith = (Mat3.rotation 2 t).apply (Geodetic.mk l phi h).zenith := by
  obtain ⟨-, f1, -, rfl⟩ := conv_eq hc
  have key : ∀ r z : ℝ, (Mat3.rotation 2 t).apply ⟨r * Real.cos l, r * Real.sin l, z⟩ =
      (⟨r * Real.cos (l + t), r * Real.sin (l + t), z⟩ : Vec3 ℝ) := by
    intro r z
    rw [Real.cos_add, Real.sin_add]
    unfold Mat3.rotation Mat3.apply Mat3.set Mat3.zero Mat3.ofFn Mat3.get
    simp only [cos_real, sin_real, lit_real, neg_real, add_real, mul_real]
    ext <;> simp <;> ring
  refine ⟨⟨_, geocentric_real a f f1 _, ?_⟩, (key _ _).symm⟩
  rw [geocentric_real a f f1, key]

/-- **C127.** The position is mirrored in the plane of the equator when the latitude is negated, and in the plane of the zero
meridian when the longitude is; a latitude counted past the pole is the point on the opposite meridian, and a whole turn of either
angle changes nothing.  The same of the vertical. -/
theorem C127_mirrors (a f : ℝ) (c : EllipsoidConverter ℝ) (hc : EllipsoidConverter.new ⟨a, f⟩ = .ok c) (l phi h : ℝ) :
    (∃ v, c.geodeticToGeocentric ⟨l, phi, h⟩ = .ok v ∧
      c.geodeticToGeocentric ⟨l, -phi, h⟩ = .ok ⟨v.x, v.y, -v.z⟩ ∧
      c.geodeticToGeocentric ⟨-l, phi, h⟩ = .ok ⟨v.x, -v.y, v.z⟩ ∧
      c.geodeticToGeocentric ⟨l + Real.pi, Real.pi - phi, h⟩ = .ok v ∧
      ∀ m n : ℤ, c.geodeticToGeocentric ⟨l + m * (2 * Real.pi), phi + n * (2 * Real.pi), h⟩ = .ok v) ∧
    (∃ z, (Geodetic.mk l phi h).zenith = z ∧ (Geodetic.mk l (-phi) h).zenith = ⟨z.x, z.y, -z.z⟩ ∧
      (Geodetic.mk (-l) phi h).zenith = ⟨z.x, -z.y, z.z⟩ ∧ (Geodetic.mk (l + Real.pi) (Real.pi - phi) h).zenith = z ∧
      ∀ m n : ℤ, (Geodetic.mk (l + m * (2 * Real.pi)) (phi + n * (2 * Real.pi)) h).zenith = z) := by
  obtain ⟨-, f1, -, rfl⟩ := conv_eq hc
  constructor
  · refine ⟨_, geocentric_real a f f1 _, ?_, ?_, ?_, fun m n => ?_⟩ <;> rw [geocentric_real a f f1] <;>
      simp [Real.cos_pi_sub, Real.sin_pi_sub, Real.cos_add_pi, Real.sin_add_pi, Real.cos_add_int_mul_two_pi, Real.sin_add_int_mul_two_pi]
  · refine ⟨_, rfl, ?_, ?_, ?_, fun m n => ?_⟩ <;> unfold Geodetic.zenith <;>
      simp [Real.cos_pi_sub, Real.sin_pi_sub, Real.cos_add_pi, Real.sin_add_pi, Real.cos_add_int_mul_two_pi, Real.sin_add_int_mul_two_pi]

theorem neg_ofQuot (s : Bool) (p q : ℕ) : F64.neg (F64.ofQuot s p q) = F64.ofQuot (!s) p q := by
  unfold F64.ofQuot F64.mkFin
  split <;> rfl

theorem mul_neg_f64 (x y : F64) : x *. Arith.neg y = Arith.neg (x *. y) := by
  show F64.mul x (F64.neg y) = F64.neg (F64.mul x y)
  rcases x with _ | s | ⟨s, a, h⟩ <;> rcases y with _ | t | ⟨t, b, k⟩
  iterate 4 rfl
  · show F64.inf _ = F64.inf _; rw [Bool.xor_not]
  · show (if b = 0 then F64.nan else F64.inf _) = F64.neg (if b = 0 then F64.nan else F64.inf _)
    split
    · rfl
    · rw [Bool.xor_not]; rfl
  · rfl
  · show (if a = 0 then F64.nan else F64.inf _) = F64.neg (if a = 0 then F64.nan else F64.inf _)
    split
    · rfl
    · rw [Bool.xor_not]; rfl
  · show F64.ofQuot (s ^^ !t) (a * b) UN = F64.neg (F64.ofQuot (s ^^ t) (a * b) UN)
    rw [neg_ofQuot, Bool.xor_not]

theorem mul_comm_f64 (x y : F64) : x *. y = y *. x := by
  show F64.mul x y = F64.mul y x
  rcases x with _ | s | ⟨s, a, h⟩ <;> rcases y with _ | t | ⟨t, b, k⟩ <;> try rfl
  · show F64.inf _ = F64.inf _; rw [Bool.xor_comm]
  · show (if b = 0 then F64.nan else F64.inf _) = (if b = 0 then F64.nan else F64.inf _)
    rw [Bool.xor_comm]
  · show (if a = 0 then F64.nan else F64.inf _) = (if a = 0 then F64.nan else F64.inf _)
    rw [Bool.xor_comm]
  · show F64.ofQuot (s ^^ t) (a * b) UN = F64.ofQuot (t ^^ s) (b * a) UN
    rw [Bool.xor_comm, mul_comm]

theorem neg_mul_f64 (x y : F64) : Arith.neg x *. y = Arith.neg (x *. y) := by
  rw [mul_comm_f64, mul_neg_f64, mul_comm_f64]

theorem neg_neg_f64 (x : F64) : Arith.neg (Arith.neg x) = x := by cases x <;> simp [Arith.neg, F64.neg]

/-- **C127.** In binary64, for every converter, every argument (NaN and infinities included) and every library whose sine is odd and
whose cosine is even bit for bit, the two mirror symmetries hold bit for bit, and so does failure. -/
theorem C127_mirrors_f64 [Libm F64] (hsin : ∀ x : F64, Libm.sin (Arith.neg x) = Arith.neg (Libm.sin x))
    (hcos : ∀ x : F64, Libm.cos (Arith.neg x) = Libm.cos x) (c : EllipsoidConverter F64) (l phi h : F64) :
    c.geodeticToGeocentric ⟨l, Arith.neg phi, h⟩ =
      (c.geodeticToGeocentric ⟨l, phi, h⟩).map (fun v => ⟨v.x, v.y, Arith.neg v.z⟩) ∧
    c.geodeticToGeocentric ⟨Arith.neg l, phi, h⟩ =
      (c.geodeticToGeocentric ⟨l, phi, h⟩).map (fun v => ⟨v.x, Arith.neg v.y, v.z⟩) ∧
    (∃ z : Vec3 F64, (Geodetic.mk l phi h).zenith = z ∧ (Geodetic.mk l (Arith.neg phi) h).zenith = ⟨z.x, z.y, Arith.neg z.z⟩ ∧
      (Geodetic.mk (Arith.neg l) phi h).zenith = ⟨z.x, Arith.neg z.y, z.z⟩) := by
  unfold geodeticToGeocentric Geodetic.zenith
  simp only [hsin, hcos, mul_neg_f64, neg_mul_f64, neg_neg_f64]
  refine ⟨?_, ?_, _, rfl, rfl, rfl⟩ <;> split <;> rfl

/-- The hypotheses can be met: from any library make one with an odd sine and an even cosine that agrees with it on the
numbers of positive sign. -/
example (M : Libm F64) : ∃ L : Libm F64, (∀ x : F64, L.sin (Arith.neg x) = Arith.neg (L.sin x)) ∧
    (∀ x : F64, L.cos (Arith.neg x) = L.cos x) ∧
    ∀ n h, L.sin (.fin false n h) = M.sin (.fin false n h) ∧ L.cos (.fin false n h) = M.cos (.fin false n h) := by
  refine ⟨{ M with
    sin := fun x => match x with
      | .nan => .nan
      | .inf s => bif s then Arith.neg (M.sin (.inf false)) else M.sin (.inf false)
      | .fin s n h => bif s then Arith.neg (M.sin (.fin false n h)) else M.sin (.fin false n h)
    cos := fun x => M.cos (Arith.abs x) }, ?_, ?_, fun n h => ⟨rfl, rfl⟩⟩
  · intro x
    rcases x with _ | s | ⟨s, n, h⟩
    · rfl
    · cases s
      · rfl
      · exact (neg_neg_f64 _).symm
    · cases s
      · rfl
      · exact (neg_neg_f64 _).symm
  · intro x
    rcases x with _ | s | ⟨s, n, h⟩ <;> rfl

/-- **C27.** In binary64 the angle of two vectors does not depend on their order, nor on the sign of both, bit for bit, for every
library and all components (NaN and infinities included). -/
theorem C27_angle_symm_f64 [Libm F64] (u v : Vec3 F64) : u.angle v = v.angle u ∧ u.neg.angle v.neg = u.angle v := by
  have nn : ∀ w : Vec3 F64, w.neg.norm = w.norm := by
    intro w
    unfold Vec3.norm Vec3.neg sq
    simp only [mul_neg_f64, neg_mul_f64, neg_neg_f64]
  constructor
  · unfold Vec3.angle Vec3.dot
    rw [mul_comm_f64 u.normalize.x, mul_comm_f64 u.normalize.y, mul_comm_f64 u.normalize.z]
  · unfold Vec3.angle Vec3.dot Vec3.normalize
    rw [nn, nn]
    unfold Vec3.scale Vec3.neg
    simp only [mul_neg_f64, neg_mul_f64, neg_neg_f64]

/-- A converter. -/
example : ∃ c, EllipsoidConverter.new (⟨6378137, 1 / 298⟩ : Ellipsoid ℝ) = .ok c :=
  (C45_new_ok_iff _ _).mpr ⟨by norm_num, by norm_num, by norm_num⟩

end Verif
