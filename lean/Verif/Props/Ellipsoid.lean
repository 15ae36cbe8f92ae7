import Verif.Model.Ellipsoid
import Verif.Props.Common
import Verif.Float.Near
import Mathlib.Analysis.Real.Pi.Bounds

/-!
# C45-C48: ellipsoid conversions
-/

namespace Verif
open Arith F64

/-! ## C45 -/

/-- The converter built for valid parameters, in exact arithmetic. -/
theorem new_real (a f : ℝ) (f0 : 0 ≤ f) (f1 : f < 1) (a0 : 0 ≤ a) :
    EllipsoidConverter.new (⟨a, f⟩ : Ellipsoid ℝ) = .ok
      { el := ⟨a, f⟩, aeps2 := a * a * 1e-32, e2 := 1 - (1 - f) ^ 2, e4t := (1 - (1 - f) ^ 2) ^ 2 * 1.5
        ec2 := (1 - f) ^ 2, ec := 1 - f, b := a * (1 - f) } := by
  unfold EllipsoidConverter.new
  have h1 : ((f <. lit 0) || (lit 1 <=. f)) = false := by
    rw [Bool.or_eq_false_iff, lt_real_false, le_real_false]
    simp only [lit_real]; push_cast; exact ⟨f0, f1⟩
  have h2 : (a <. lit 0) = false := by
    rw [lt_real_false]; simpa using a0
  simp only [h1, h2, Bool.false_eq_true, if_false]
  have e : (lit 1 : ℝ) -. (lit 2 -. f) *. f = (1 - f) ^ 2 := by
    simp only [lit_real, sub_real, mul_real]; push_cast; ring
  have e' : (lit 2 -. f) *. f = 1 - (1 - f) ^ 2 := by
    simp only [lit_real, sub_real, mul_real]; push_cast; ring
  have h3 : (((lit 1 : ℝ) -. (lit 2 -. f) *. f) <=. lit 0) = false := by
    rw [le_real_false, e]; simp only [lit_real, Rat.cast_zero]
    have : 0 < 1 - f := by linarith
    positivity
  rw [h3]
  simp only [e', Bool.false_eq_true, if_false]
  have e'' : (lit 1 : ℝ) -. (1 - (1 - f) ^ 2) = (1 - f) ^ 2 := by
    simp only [lit_real, sub_real]; push_cast; ring
  have e3 : sqrt ((lit 1 : ℝ) -. (1 - (1 - f) ^ 2)) = 1 - f := by
    rw [e'', sqrt_real, Real.sqrt_sq (by linarith)]
  rw [e3, e'']
  simp only [mul_real, lit_real]
  congr 2
  · norm_num [pow_two]

/-- **C45.** In exact arithmetic `new` succeeds exactly for `0 ≤ f < 1` and `a ≥ 0` (zero included). -/
theorem C45_new_ok_iff (a f : ℝ) :
    (∃ c, EllipsoidConverter.new (⟨a, f⟩ : Ellipsoid ℝ) = .ok c) ↔ 0 ≤ f ∧ f < 1 ∧ 0 ≤ a := by
  constructor
  · rintro ⟨c, h⟩
    unfold EllipsoidConverter.new at h
    simp only at h
    split at h
    · cases h
    rename_i h1
    split at h
    · cases h
    rename_i h2
    rw [Bool.or_eq_true, not_or, lt_real, le_real] at h1
    rw [lt_real] at h2
    simp only [lit_real, not_lt, not_le] at h1 h2
    push_cast at h1 h2
    exact ⟨h1.1, h1.2, h2⟩
  · rintro ⟨h1, h2, h3⟩
    exact ⟨_, new_real a f h1 h2 h3⟩

/-- **C45.** The errors in exact arithmetic: flattening is checked before the radius, and
`BadEccentricity` is never reported. -/
theorem C45_new_errors (a f : ℝ) :
    (EllipsoidConverter.new (⟨a, f⟩ : Ellipsoid ℝ) = .error .invalidFlattening ↔ f < 0 ∨ 1 ≤ f) ∧
    (EllipsoidConverter.new (⟨a, f⟩ : Ellipsoid ℝ) = .error .invalidRadius ↔ 0 ≤ f ∧ f < 1 ∧ a < 0) ∧
    EllipsoidConverter.new (⟨a, f⟩ : Ellipsoid ℝ) ≠ .error .badEccentricity ∧
    EllipsoidConverter.new (⟨a, f⟩ : Ellipsoid ℝ) ≠ .error .badCoordinates := by
  by_cases hf : f < 0 ∨ 1 ≤ f
  · have : EllipsoidConverter.new (⟨a, f⟩ : Ellipsoid ℝ) = .error .invalidFlattening := by
      unfold EllipsoidConverter.new
      have h1 : ((f <. lit 0) || (lit 1 <=. f)) = true := by
        rw [Bool.or_eq_true, lt_real, le_real]; simp only [lit_real]; push_cast; exact hf
      simp only [h1, if_true]
    rw [this]
    refine ⟨⟨fun _ => hf, fun _ => rfl⟩, ⟨fun h => (by cases h), fun h => ?_⟩, by simp, by simp⟩
    rcases hf with hf | hf <;> linarith [h.1, h.2.1]
  · rw [not_or, not_lt, not_le] at hf
    by_cases ha : a < 0
    · have : EllipsoidConverter.new (⟨a, f⟩ : Ellipsoid ℝ) = .error .invalidRadius := by
        unfold EllipsoidConverter.new
        have h1 : ((f <. lit 0) || (lit 1 <=. f)) = false := by
          rw [Bool.or_eq_false_iff, lt_real_false, le_real_false]
          simp only [lit_real]; push_cast; exact hf
        have h2 : (a <. lit 0) = true := by rw [lt_real]; simpa using ha
        simp only [h1, h2, Bool.false_eq_true, if_true, if_false]
      rw [this]
      refine ⟨⟨fun h => (by cases h), fun h => ?_⟩, ⟨fun _ => ⟨hf.1, hf.2, ha⟩, fun _ => rfl⟩,
        by simp, by simp⟩
      rcases h with h | h <;> linarith [hf.1, hf.2]
    · rw [new_real a f hf.1 hf.2 (not_lt.mp ha)]
      refine ⟨⟨fun h => (by cases h), fun h => ?_⟩, ⟨fun h => (by cases h), fun h => absurd h.2.2 ha⟩,
        by simp, by simp⟩
      rcases h with h | h <;> linarith [hf.1, hf.2]

/-- Did the constructor succeed? -/
def isOk {ε α : Type} : Except ε α → Bool
  | .ok _ => true
  | .error _ => false

/-- **C45.** In `f64` a NaN radius and a NaN flattening are both accepted, a zero radius too, and
`BadEccentricity` is reachable (`f = 1 - 2^-52`). -/
theorem C45_new_f64_witnesses :
    isOk (EllipsoidConverter.new (⟨.nan, lit 0.003⟩ : Ellipsoid F64)) = true ∧
    isOk (EllipsoidConverter.new (⟨lit 6378137, .nan⟩ : Ellipsoid F64)) = true ∧
    isOk (EllipsoidConverter.new (⟨lit 0, lit 0.003⟩ : Ellipsoid F64)) = true ∧
    isOk (EllipsoidConverter.new (⟨.inf false, lit 0.003⟩ : Ellipsoid F64)) = true ∧
    EllipsoidConverter.new (⟨lit 6378137, lit (1 - 1 / 2 ^ 52)⟩ : Ellipsoid F64) = .error .badEccentricity := by
  decide +kernel

/-- **C45.** In `f64`, for every flattening in `[0, 0.9999]` and every radius that is not negative (NaN
included), `new` succeeds. -/
theorem C45_new_f64_ok (a f : F64) (q : ℚ) (hf : Is f q) (q0 : 0 ≤ q) (q1 : q ≤ 0.9999)
    (ha : (a <. lit 0) = false) : isOk (EllipsoidConverter.new (⟨a, f⟩ : Ellipsoid F64)) = true := by
  have l0 : Is (lit 0 : F64) 0 := by
    have := Is.lit_int 0 (by norm_num); push_cast at this; exact this
  have l1 : Is (lit 1 : F64) 1 := by
    have := Is.lit_int 1 (by norm_num); push_cast at this; exact this
  have l2 : Is (lit 2 : F64) 2 := by
    have := Is.lit_int 2 (by norm_num); push_cast at this; exact this
  unfold EllipsoidConverter.new
  have h1 : ((f <. lit 0) || (lit 1 <=. f)) = false := by
    rw [Bool.or_eq_false_iff, hf.lt l0, l1.le hf]
    norm_num at q1 ⊢
    exact ⟨q0, by linarith⟩
  simp only [h1, ha, Bool.false_eq_true, if_false]
  have qa : |q| ≤ 1 := by rw [abs_le]; norm_num at q1 ⊢; constructor <;> linarith
  have d1 := l2.sub hf (small_le_HUGE (by rw [abs_le] at *; norm_num; constructor <;> linarith))
  have e1 := RN_err_le (x := 2 - q) (M := 2) (by rw [abs_le]; norm_num at q1 ⊢; constructor <;> linarith)
  set r := RN (2 - q)
  have r0 : |r| ≤ 3 := by
    rw [abs_le] at e1 ⊢; norm_num at e1 q1 ⊢; constructor <;> linarith [e1.1, e1.2]
  have rq : |r * q| ≤ 3 := by
    rw [abs_mul]; nlinarith [abs_nonneg q, abs_nonneg r]
  have d2 := d1.mul hf (small_le_HUGE (rq.trans (by norm_num)))
  have e2 := RN_err_le rq
  set s := RN (r * q)
  have hs : s ≤ 1 - 1 / 10 ^ 9 := by
    rw [abs_le] at e1 e2
    have k1 : r * q ≤ (2 - q) * q + 1 / 10 ^ 12 := by
      norm_num at e1 q1 ⊢
      nlinarith [e1.1, e1.2]
    have k2 : (2 - q) * q ≤ 1 - 1 / 10 ^ 8 := by norm_num at q1 ⊢; nlinarith
    norm_num at e2 k1 k2 ⊢
    linarith [e2.2]
  have hs' : -4 ≤ s := by
    rw [abs_le] at e2 rq; norm_num at e2 rq ⊢; linarith [e2.1, rq.1]
  have d3 := l1.sub d2 (small_le_HUGE (by
    rw [abs_le]; norm_num at hs ⊢; constructor <;> linarith))
  have pos : 0 < RN (1 - s) := by
    have : (1 : ℚ) / 2 ^ 40 ≤ RN (1 - s) :=
      le_RN_of_le (by
        have := RepQ.dyadic 1 40 (by norm_num) (by norm_num)
        push_cast at this; exact this) (by
        norm_num at hs ⊢; linarith)
    linarith [show (0 : ℚ) < 1 / 2 ^ 40 by norm_num]
  rw [d3.le l0]
  simp only [not_le.mpr pos, decide_false, Bool.false_eq_true, if_false]
  rfl

-- the WGS84 ellipsoid satisfies the hypotheses
example : isOk (EllipsoidConverter.new (WGS84 : Ellipsoid F64)) = true := by decide +kernel

/-! ## C46 -/

/-- The converter for a valid ellipsoid, in exact arithmetic. -/
noncomputable def convR (a f : ℝ) : EllipsoidConverter ℝ :=
  { el := ⟨a, f⟩, aeps2 := a * a * 1e-32, e2 := 1 - (1 - f) ^ 2, e4t := (1 - (1 - f) ^ 2) ^ 2 * 1.5
    ec2 := (1 - f) ^ 2, ec := 1 - f, b := a * (1 - f) }

theorem conv_eq {a f : ℝ} {c : EllipsoidConverter ℝ} (h : EllipsoidConverter.new ⟨a, f⟩ = .ok c) :
    0 ≤ f ∧ f < 1 ∧ 0 ≤ a ∧ c = convR a f := by
  obtain ⟨h1, h2, h3⟩ := (C45_new_ok_iff a f).mp ⟨c, h⟩
  rw [new_real a f h1 h2 h3] at h
  exact ⟨h1, h2, h3, (Except.ok.inj h).symm⟩

/-- The radicand `cos²φ + (1-f)² sin²φ`. -/
theorem radicand_pos (f φ : ℝ) (f1 : f < 1) : 0 < Real.cos φ ^ 2 + (1 - f) ^ 2 * Real.sin φ ^ 2 := by
  have h := Real.sin_sq_add_cos_sq φ
  have hw : 0 < (1 - f) ^ 2 := by have : 0 < 1 - f := by linarith
                                  positivity
  rcases eq_or_ne (Real.sin φ) 0 with hs | hs
  · rw [hs] at h ⊢; nlinarith
  · have : 0 < Real.sin φ ^ 2 := by positivity
    positivity

theorem geocentric_real (a f : ℝ) (f1 : f < 1) (g : Geodetic ℝ) :
    (convR a f).geodeticToGeocentric g =
      .ok ⟨(a / √(Real.cos g.phi ^ 2 + (1 - f) ^ 2 * Real.sin g.phi ^ 2) + g.height) * Real.cos g.phi *
             Real.cos g.elong,
           (a / √(Real.cos g.phi ^ 2 + (1 - f) ^ 2 * Real.sin g.phi ^ 2) + g.height) * Real.cos g.phi *
             Real.sin g.elong,
           ((1 - f) ^ 2 * (a / √(Real.cos g.phi ^ 2 + (1 - f) ^ 2 * Real.sin g.phi ^ 2)) + g.height) *
             Real.sin g.phi⟩ := by
  unfold EllipsoidConverter.geodeticToGeocentric convR
  have hd : Real.cos g.phi * Real.cos g.phi + (1 - f) * (1 - f) * Real.sin g.phi * Real.sin g.phi =
      Real.cos g.phi ^ 2 + (1 - f) ^ 2 * Real.sin g.phi ^ 2 := by ring
  simp only [cos_real, sin_real, lit_real, add_real, sub_real, mul_real, div_real, sqrt_real, Rat.cast_one,
    hd]
  have : (((0 : ℚ) : ℝ) <. (Real.cos g.phi ^ 2 + (1 - f) ^ 2 * Real.sin g.phi ^ 2)) = true := by
    rw [lt_real]; push_cast; exact radicand_pos f _ f1
  rw [if_pos this, show (1 - f) * (1 - f) = (1 - f) ^ 2 by ring]

/-- **C46.** `geodetic_to_geocentric` never fails in exact arithmetic, and returns `S + height * zenith`
where `S` lies on the ellipsoid `(x²+y²)/a² + z²/(a(1-f))² = 1` and the zenith is a unit vector that is a
positive multiple of the gradient of the ellipsoid equation at `S`. -/
theorem C46_geocentric (a f : ℝ) (ha : 0 < a) (c : EllipsoidConverter ℝ)
    (h : EllipsoidConverter.new ⟨a, f⟩ = .ok c) (g : Geodetic ℝ) :
    ∃ S : Vec3 ℝ, ∃ k : ℝ,
      c.geodeticToGeocentric g = .ok ⟨S.x + g.height * g.zenith.x, S.y + g.height * g.zenith.y,
        S.z + g.height * g.zenith.z⟩ ∧
      (S.x ^ 2 + S.y ^ 2) / a ^ 2 + S.z ^ 2 / (a * (1 - f)) ^ 2 = 1 ∧
      0 < k ∧ S.x / a ^ 2 = k * g.zenith.x ∧ S.y / a ^ 2 = k * g.zenith.y ∧
      S.z / (a * (1 - f)) ^ 2 = k * g.zenith.z ∧
      g.zenith.x ^ 2 + g.zenith.y ^ 2 + g.zenith.z ^ 2 = 1 := by
  obtain ⟨f0, f1, -, rfl⟩ := conv_eq h
  have hd := radicand_pos f g.phi f1
  set D := √(Real.cos g.phi ^ 2 + (1 - f) ^ 2 * Real.sin g.phi ^ 2) with hD
  have D2 : D ^ 2 = Real.cos g.phi ^ 2 + (1 - f) ^ 2 * Real.sin g.phi ^ 2 := Real.sq_sqrt hd.le
  have Dp : 0 < D := Real.sqrt_pos.mpr hd
  have hw : 0 < 1 - f := by linarith
  have h1 := Real.sin_sq_add_cos_sq g.phi
  have h2 := Real.sin_sq_add_cos_sq g.elong
  have zx : g.zenith.x = Real.cos g.phi * Real.cos g.elong := rfl
  have zy : g.zenith.y = Real.cos g.phi * Real.sin g.elong := rfl
  have zz : g.zenith.z = Real.sin g.phi := rfl
  rw [zx, zy, zz, geocentric_real a f f1, ← hD]
  refine ⟨⟨a / D * Real.cos g.phi * Real.cos g.elong, a / D * Real.cos g.phi * Real.sin g.elong,
    (1 - f) ^ 2 * (a / D) * Real.sin g.phi⟩, 1 / (a * D), ?_, ?_, by positivity, ?_, ?_, ?_, ?_⟩
  · congr 2 <;> ring
  · have : (a / D * Real.cos g.phi * Real.cos g.elong) ^ 2 + (a / D * Real.cos g.phi * Real.sin g.elong) ^ 2
        = a ^ 2 / D ^ 2 * Real.cos g.phi ^ 2 * (Real.sin g.elong ^ 2 + Real.cos g.elong ^ 2) := by ring
    simp only
    rw [this, h2]
    field_simp
    linarith
  · simp only; field_simp
  · simp only; field_simp
  · simp only; field_simp
  · linear_combination h1 + Real.cos g.phi ^ 2 * h2

example : ∃ c, EllipsoidConverter.new (⟨6378137, 1 / 298⟩ : Ellipsoid ℝ) = .ok c :=
  (C45_new_ok_iff _ _).mpr ⟨by norm_num, by norm_num, by norm_num⟩

/-! ## C47 -/

/-- On the surface (`e = 1-f`, `D² = C² + e²S²`) the iteration step is already converged. -/
theorem latHeight_surface (a f C S D : ℝ) (ha : 0 < a) (f1 : f < 1) (hC : 0 < C) (hS : 0 ≤ S)
    (hD : 0 < D) (D2 : D ^ 2 = C ^ 2 + (1 - f) ^ 2 * S ^ 2) (SC : S ^ 2 + C ^ 2 = 1) :
    (convR a f).latHeight ((a * C / D) ^ 2) (a * (1 - f) ^ 2 * S / D) = (Real.arctan (S / C), 0) := by
  have he : 0 < 1 - f := by linarith
  unfold EllipsoidConverter.latHeight convR
  simp only [add_real, sub_real, mul_real, div_real, sqrt_real, atan_real]
  rw [Real.sqrt_sq (by positivity)]
  set e := 1 - f with hedef
  have k1 : a * e ^ 2 * S / D / a = e ^ 2 * S / D := by field_simp
  have k2 : a * C / D / a = C / D := by field_simp
  rw [k1, k2]
  have k3 : e * (C / D) * (e * (C / D)) + e ^ 2 * S / D * (e ^ 2 * S / D) = e ^ 2 := by
    field_simp; rw [D2]
  rw [k3, Real.sqrt_sq he.le, sub_self, mul_zero, zero_mul, zero_mul, sub_zero, sub_zero]
  have k4 : C / D * (e ^ 2 * e) - (1 - e ^ 2) * (e * (C / D) * (e * (C / D)) * (e * (C / D))) =
      e ^ 5 * C / D ^ 3 := by
    have : D ^ 2 - (1 - e ^ 2) * C ^ 2 = e ^ 2 := by linear_combination D2 + e ^ 2 * SC
    field_simp
    linear_combination this
  have k5 : e * (e ^ 2 * S / D) * (e ^ 2 * e) +
      (1 - e ^ 2) * (e ^ 2 * S / D * (e ^ 2 * S / D) * (e ^ 2 * S / D)) = e ^ 6 * S / D ^ 3 := by
    have : D ^ 2 + (1 - e ^ 2) * S ^ 2 = 1 := by linear_combination D2 + SC
    rcases hS.eq_or_lt with h0 | h0
    · rw [← h0]; simp
    · field_simp
      linear_combination this
  rw [k4, k5]
  set K := e ^ 11 * C / D ^ 6 with hK
  have Kp : 0 < K := by positivity
  have k6 : e ^ 6 * S / D ^ 3 * (e ^ 5 * C / D ^ 3) = K * S := by rw [hK]; field_simp
  have k7 : e * (e ^ 5 * C / D ^ 3 * (e ^ 5 * C / D ^ 3)) = K * C := by rw [hK]; field_simp
  rw [k6, k7]
  have k8 : e ^ 2 * (K * S * (K * S)) + K * C * (K * C) = (K * D) ^ 2 := by
    rw [mul_pow, D2]; ring
  rw [k8, Real.sqrt_sq (by positivity)]
  clear_value K e
  refine Prod.ext ?_ ?_
  · simp only; rw [mul_div_mul_left _ _ Kp.ne']
  · simp only
    have : a * C / D * (K * C) + a * e ^ 2 * S / D * (K * S) - a * (K * D) = 0 := by
      field_simp
      linear_combination (-(a * K)) * D2
    rw [this, zero_div]

/-- `atan2` inverts polar coordinates. -/
theorem atan2_polar_inv (r l : ℝ) (hr : 0 < r) (h1 : -Real.pi < l) (h2 : l ≤ Real.pi) :
    Libm.atan2 (r * Real.sin l) (r * Real.cos l) = l := by
  rw [atan2_real]
  have := Complex.arg_mul_cos_add_sin_mul_I hr ⟨h1, h2⟩
  refine Eq.trans ?_ this
  congr 1
  apply Complex.ext <;> simp [← Complex.ofReal_cos, ← Complex.ofReal_sin]

/-- The sign treatment of the latitude. -/
theorem phi_sign (φ : ℝ) (h1 : -(Real.pi / 2) < φ) (h2 : φ < Real.pi / 2) (z : ℝ)
    (hz : z < 0 ↔ Real.sin φ < 0) :
    (if (z <. lit 0) = true then Arith.neg (Real.arctan (|Real.sin φ| / Real.cos φ))
      else Real.arctan (|Real.sin φ| / Real.cos φ)) = φ := by
  have t : Real.arctan (Real.sin φ / Real.cos φ) = φ := by
    rw [← Real.tan_eq_sin_div_cos, Real.arctan_tan h1 h2]
  split
  · rename_i h
    rw [lt_real] at h
    simp only [lit_real, Rat.cast_zero] at h
    rw [abs_of_neg (hz.mp h), neg_div, Real.arctan_neg, neg_real, neg_neg, t]
  · rename_i h
    rw [lt_real] at h
    simp only [lit_real, Rat.cast_zero] at h
    rw [abs_of_nonneg (not_lt.mp (fun h' => h (hz.mpr h'))), t]

/-- **C47.** Round trip of a surface point, for every valid ellipsoid, every longitude in `(-π, π]` and every
latitude off the poles by more than the code's cut-off (`p² > 1e-32 a²`, i.e. about `1e-16` rad). -/
theorem C47_surface_round_trip (a f : ℝ) (ha : 0 < a) (c : EllipsoidConverter ℝ)
    (h : EllipsoidConverter.new ⟨a, f⟩ = .ok c) (l φ : ℝ) (hl : -Real.pi < l ∧ l ≤ Real.pi)
    (hφ : -(Real.pi / 2) < φ ∧ φ < Real.pi / 2)
    (cut : 1e-32 * (Real.cos φ ^ 2 + (1 - f) ^ 2 * Real.sin φ ^ 2) < Real.cos φ ^ 2) :
    ∃ v, c.geodeticToGeocentric ⟨l, φ, 0⟩ = .ok v ∧ c.geocentricToGeodetic v = ⟨l, φ, 0⟩ := by
  obtain ⟨f0, f1, -, rfl⟩ := conv_eq h
  refine ⟨_, geocentric_real a f f1 _, ?_⟩
  have hd := radicand_pos f φ f1
  simp only [add_zero]
  set D := √(Real.cos φ ^ 2 + (1 - f) ^ 2 * Real.sin φ ^ 2) with hD
  have D2 : D ^ 2 = Real.cos φ ^ 2 + (1 - f) ^ 2 * Real.sin φ ^ 2 := Real.sq_sqrt hd.le
  have Dp : 0 < D := Real.sqrt_pos.mpr hd
  have he : 0 < 1 - f := by linarith
  have Cp : 0 < Real.cos φ := Real.cos_pos_of_mem_Ioo ⟨hφ.1, hφ.2⟩
  have h1 := Real.sin_sq_add_cos_sq φ
  have h2 := Real.sin_sq_add_cos_sq l
  have p2 : sq (a / D * Real.cos φ * Real.cos l) +. sq (a / D * Real.cos φ * Real.sin l) =
      (a * Real.cos φ / D) ^ 2 := by
    simp only [sq, mul_real, add_real]
    linear_combination (a / D * Real.cos φ) ^ 2 * h2
  have az : Arith.abs ((1 - f) ^ 2 * (a / D) * Real.sin φ) = a * (1 - f) ^ 2 * |Real.sin φ| / D := by
    rw [abs_real, abs_mul, abs_of_pos (by positivity)]; ring
  unfold EllipsoidConverter.geocentricToGeodetic
  simp only [p2, az]
  have q1 : ((lit 0 : ℝ) <. (a * Real.cos φ / D) ^ 2) = true := by
    rw [lt_real]; simp only [lit_real, Rat.cast_zero]; positivity
  have q2 : ((convR a f).aeps2 <. (a * Real.cos φ / D) ^ 2) = true := by
    rw [lt_real]
    show a * a * 1e-32 < _
    rw [div_pow, lt_div_iff₀ (by positivity), D2, mul_pow]
    have := mul_lt_mul_of_pos_left cut (show 0 < a ^ 2 by positivity)
    linarith
  rw [if_pos q1, if_pos q2, latHeight_surface a f _ |Real.sin φ| D ha f1 Cp (abs_nonneg _) Dp
    (by rw [sq_abs]; exact D2) (by rw [sq_abs]; exact h1)]
  simp only
  rw [atan2_polar_inv _ _ (by positivity) hl.1 hl.2, phi_sign φ hφ.1 hφ.2]
  have : 0 < (1 - f) ^ 2 * (a / D) := by positivity
  constructor
  · intro h; by_contra h'; push Not at h'; nlinarith
  · intro h; nlinarith

-- latitude 45 degrees on a WGS84-like ellipsoid meets the hypotheses
example : (1e-32 : ℝ) * (Real.cos (Real.pi / 4) ^ 2 + (1 - 1 / 298) ^ 2 * Real.sin (Real.pi / 4) ^ 2) <
    Real.cos (Real.pi / 4) ^ 2 := by
  rw [Real.cos_pi_div_four, Real.sin_pi_div_four, div_pow, Real.sq_sqrt (by norm_num)]; norm_num

/-- On a sphere the latitude and height are exact for every point off the axis. -/
theorem latHeight_sphere (a R C S : ℝ) (ha : 0 < a) (hR : 0 < R) (hC : 0 < C) (SC : S ^ 2 + C ^ 2 = 1) :
    (convR a 0).latHeight ((R * C) ^ 2) (R * S) = (Real.arctan (S / C), R - a) := by
  unfold EllipsoidConverter.latHeight convR
  simp only [add_real, sub_real, mul_real, div_real, sqrt_real, atan_real]
  rw [Real.sqrt_sq (by positivity)]
  have e1 : (1 : ℝ) - (1 - 0) ^ 2 = 0 := by norm_num
  have e2 : (1 : ℝ) - 0 = 1 := by norm_num
  rw [e1, e2]
  have k : (1 : ℝ) * (R * C / a) * (1 * (R * C / a)) + R * S / a * (R * S / a) = (R / a) ^ 2 := by
    linear_combination (R / a) ^ 2 * SC
  rw [k, Real.sqrt_sq (by positivity)]
  have q : 0 < R / a := by positivity
  set Q := R / a with hQ
  have r1 : R * C / a = Q * C := by rw [hQ]; ring
  have r2 : R * S / a = Q * S := by rw [hQ]; ring
  rw [r1, r2]
  have hR' : R = Q * a := by rw [hQ]; field_simp
  rw [hR']
  clear_value Q
  set K := Q ^ 8 * C with hK
  have Kp : 0 < K := by positivity
  have s1 : (1 * (Q * S) * (Q ^ 2 * Q) + 0 * (Q * S * (Q * S) * (Q * S))) *
        (Q * C * (Q ^ 2 * Q) - 0 * (1 * (Q * C) * (1 * (Q * C)) * (1 * (Q * C)))) -
      0 ^ 2 * 1.5 * (Q * S * (Q * S)) * (1 * (Q * C) * (1 * (Q * C))) * (Q * C) * (Q - 1) * (Q * S) = K * S := by
    rw [hK]; ring
  have cc : 1 * ((Q * C * (Q ^ 2 * Q) - 0 * (1 * (Q * C) * (1 * (Q * C)) * (1 * (Q * C)))) *
        (Q * C * (Q ^ 2 * Q) - 0 * (1 * (Q * C) * (1 * (Q * C)) * (1 * (Q * C)))) -
      0 ^ 2 * 1.5 * (Q * S * (Q * S)) * (1 * (Q * C) * (1 * (Q * C))) * (Q * C) * (Q - 1) *
        (1 * (Q * C))) = K * C := by
    rw [hK]; ring
  rw [s1, cc]
  clear_value K
  have k1 : (1 : ℝ) ^ 2 * (K * S * (K * S)) + K * C * (K * C) = K ^ 2 := by linear_combination K ^ 2 * SC
  have k2 : K * S * (K * S) + K * C * (K * C) = K ^ 2 := by linear_combination K ^ 2 * SC
  rw [k1, k2, Real.sqrt_sq Kp.le]
  refine Prod.ext ?_ ?_
  · simp only; rw [mul_div_mul_left _ _ Kp.ne']
  · simp only
    rw [div_eq_iff Kp.ne']
    linear_combination (Q * a * K) * SC

/-- **C47.** On a sphere the round trip is exact for every height above the centre. -/
theorem C47_sphere_round_trip (a : ℝ) (ha : 0 < a) (c : EllipsoidConverter ℝ)
    (h : EllipsoidConverter.new ⟨a, 0⟩ = .ok c) (l φ ht : ℝ) (hl : -Real.pi < l ∧ l ≤ Real.pi)
    (hφ : -(Real.pi / 2) < φ ∧ φ < Real.pi / 2) (hh : -a < ht)
    (cut : 1e-32 * a ^ 2 < ((a + ht) * Real.cos φ) ^ 2) :
    ∃ v, c.geodeticToGeocentric ⟨l, φ, ht⟩ = .ok v ∧ c.geocentricToGeodetic v = ⟨l, φ, ht⟩ := by
  obtain ⟨f0, f1, -, rfl⟩ := conv_eq h
  refine ⟨_, geocentric_real a 0 f1 _, ?_⟩
  have h1 := Real.sin_sq_add_cos_sq φ
  have h2 := Real.sin_sq_add_cos_sq l
  have d : √(Real.cos φ ^ 2 + Real.sin φ ^ 2) = 1 := by rw [add_comm, h1, Real.sqrt_one]
  simp only [sub_zero, one_pow, one_mul, d, div_one]
  have Cp : 0 < Real.cos φ := Real.cos_pos_of_mem_Ioo ⟨hφ.1, hφ.2⟩
  have Rp : 0 < a + ht := by linarith
  have p2 : sq ((a + ht) * Real.cos φ * Real.cos l) +. sq ((a + ht) * Real.cos φ * Real.sin l) =
      ((a + ht) * Real.cos φ) ^ 2 := by
    simp only [sq, mul_real, add_real]
    linear_combination ((a + ht) * Real.cos φ) ^ 2 * h2
  have az : Arith.abs ((a + ht) * Real.sin φ) = (a + ht) * |Real.sin φ| := by
    rw [abs_real, abs_mul, abs_of_pos Rp]
  unfold EllipsoidConverter.geocentricToGeodetic
  simp only [p2, az]
  have q1 : ((lit 0 : ℝ) <. ((a + ht) * Real.cos φ) ^ 2) = true := by
    rw [lt_real]; simp only [lit_real, Rat.cast_zero]; positivity
  have q2 : ((convR a 0).aeps2 <. ((a + ht) * Real.cos φ) ^ 2) = true := by
    rw [lt_real]
    show a * a * 1e-32 < _
    linarith
  rw [if_pos q1, if_pos q2, latHeight_sphere a _ _ |Real.sin φ| ha Rp Cp (by rw [sq_abs]; exact h1)]
  simp only
  rw [atan2_polar_inv _ _ (by positivity) hl.1 hl.2, phi_sign φ hφ.1 hφ.2, add_sub_cancel_left]
  constructor
  · intro h; by_contra h'; push Not at h'; nlinarith
  · intro h; nlinarith

/-- A sphere of radius 6371 km, at a latitude of one radian and 400 km below the surface. -/
example : (∃ c, EllipsoidConverter.new (⟨6371000, 0⟩ : Ellipsoid ℝ) = .ok c) ∧ -Real.pi < (3 : ℝ) ∧ (3 : ℝ) ≤ Real.pi ∧
    -(Real.pi / 2) < (1 : ℝ) ∧ (1 : ℝ) < Real.pi / 2 ∧ -6371000 < (-400000 : ℝ) ∧
    1e-32 * (6371000 : ℝ) ^ 2 < ((6371000 + -400000) * Real.cos 1) ^ 2 := by
  have h3 := Real.pi_gt_three
  refine ⟨(C45_new_ok_iff _ _).mpr ⟨by norm_num, by norm_num, by norm_num⟩, by linarith, h3.le, by linarith, by linarith,
    by norm_num, ?_⟩
  have := Real.cos_one_pos
  have h2 : (0.5 : ℝ) ≤ Real.cos 1 := by
    have := Real.one_sub_sq_div_two_le_cos (x := 1); norm_num at this ⊢; exact this
  nlinarith [mul_self_nonneg (Real.cos 1 - 0.5)]

/-- **C47.** On the equator the round trip is exact for every ellipsoid and every height above the evolute
(`a + height > a e²`). -/
theorem C47_equator_round_trip (a f : ℝ) (ha : 0 < a) (c : EllipsoidConverter ℝ)
    (h : EllipsoidConverter.new ⟨a, f⟩ = .ok c) (l ht : ℝ) (hl : -Real.pi < l ∧ l ≤ Real.pi)
    (hh : a * (1 - (1 - f) ^ 2) < a + ht) (cut : 1e-32 * a ^ 2 < (a + ht) ^ 2) :
    ∃ v, c.geodeticToGeocentric ⟨l, 0, ht⟩ = .ok v ∧ c.geocentricToGeodetic v = ⟨l, 0, ht⟩ := by
  obtain ⟨f0, f1, -, rfl⟩ := conv_eq h
  refine ⟨_, geocentric_real a f f1 _, ?_⟩
  have h2 := Real.sin_sq_add_cos_sq l
  have he : 0 < 1 - f := by linarith
  have e2n : 0 ≤ 1 - (1 - f) ^ 2 := by nlinarith
  have Rp : 0 < a + ht := lt_of_le_of_lt (by positivity) hh
  have hz : (lit 0 : ℝ) = 0 := by simp
  simp only [Real.cos_zero, Real.sin_zero, one_pow, ne_eq, OfNat.ofNat_ne_zero, not_false_eq_true, zero_pow,
    mul_zero, add_zero, Real.sqrt_one, div_one, mul_one]
  have p2 : sq ((a + ht) * Real.cos l) +. sq ((a + ht) * Real.sin l) = (a + ht) ^ 2 := by
    simp only [sq, mul_real, add_real]
    linear_combination (a + ht) ^ 2 * h2
  unfold EllipsoidConverter.geocentricToGeodetic
  simp only [p2, abs_real, abs_zero]
  have q1 : ((lit 0 : ℝ) <. (a + ht) ^ 2) = true := by
    rw [lt_real]; simp only [lit_real, Rat.cast_zero]; positivity
  have q2 : ((convR a f).aeps2 <. (a + ht) ^ 2) = true := by
    rw [lt_real]
    show a * a * 1e-32 < _
    linarith
  have q3 : ((0 : ℝ) <. lit 0) = false := by rw [lt_real_false, hz]
  rw [if_pos q1, if_pos q2, q3]
  have key : (convR a f).latHeight ((a + ht) ^ 2) 0 = (0, ht) := by
    unfold EllipsoidConverter.latHeight convR
    simp only [add_real, sub_real, mul_real, div_real, sqrt_real, atan_real]
    rw [Real.sqrt_sq Rp.le]
    set e := 1 - f
    set P := (a + ht) / a with hP
    have Pp : 0 < P := by positivity
    have Pe : 1 - e ^ 2 < P := by rw [hP, lt_div_iff₀ ha]; linarith
    have k : e * P * (e * P) + 0 / a * (0 / a) = (e * P) ^ 2 := by rw [zero_div]; ring
    rw [k, Real.sqrt_sq (by positivity)]
    have f0 : 0 < P * ((e * P) ^ 2 * (e * P)) - (1 - e ^ 2) * (e * P * (e * P) * (e * P)) := by
      have : P * ((e * P) ^ 2 * (e * P)) - (1 - e ^ 2) * (e * P * (e * P) * (e * P)) =
        (P - (1 - e ^ 2)) * (e * P) ^ 3 := by ring
      rw [this]
      have : 0 < P - (1 - e ^ 2) := by linarith
      positivity
    set F := P * ((e * P) ^ 2 * (e * P)) - (1 - e ^ 2) * (e * P * (e * P) * (e * P))
    clear_value F
    have cc : 0 < e * (F * F) := by positivity
    simp only [zero_div, mul_zero, zero_mul, add_zero, sub_zero, zero_add, Real.arctan_zero]
    rw [Real.sqrt_mul_self cc.le]
    refine Prod.ext rfl ?_
    simp only
    field_simp
    ring
  rw [key]
  simp only [Bool.false_eq_true, if_false]
  rw [atan2_polar_inv _ _ Rp hl.1 hl.2]

/-- A point 6000 km below the equator of an ellipsoid like that of the Earth is still above the evolute. -/
example : (∃ c, EllipsoidConverter.new (⟨6378137, 1 / 298⟩ : Ellipsoid ℝ) = .ok c) ∧
    (6378137 : ℝ) * (1 - (1 - 1 / 298) ^ 2) < 6378137 + -6000000 ∧ 1e-32 * (6378137 : ℝ) ^ 2 < (6378137 + -6000000) ^ 2 :=
  ⟨(C45_new_ok_iff _ _).mpr ⟨by norm_num, by norm_num, by norm_num⟩, by norm_num, by norm_num⟩

/-- **C47.** At the poles latitude and height survive the round trip and the longitude becomes `0`. -/
theorem C47_pole_round_trip (a f : ℝ) (ha : 0 < a) (c : EllipsoidConverter ℝ)
    (h : EllipsoidConverter.new ⟨a, f⟩ = .ok c) (l ht : ℝ) (hh : -(a * (1 - f)) < ht) :
    (∃ v, c.geodeticToGeocentric ⟨l, Real.pi / 2, ht⟩ = .ok v ∧
      c.geocentricToGeodetic v = ⟨0, Real.pi / 2, ht⟩) ∧
    ∃ v, c.geodeticToGeocentric ⟨l, -(Real.pi / 2), ht⟩ = .ok v ∧
      c.geocentricToGeodetic v = ⟨0, -(Real.pi / 2), ht⟩ := by
  obtain ⟨f0, f1, -, rfl⟩ := conv_eq h
  have he : 0 < 1 - f := by linarith
  have d : √((1 - f) ^ 2) = 1 - f := Real.sqrt_sq he.le
  have w : (1 - f) ^ 2 * (a / (1 - f)) = a * (1 - f) := by field_simp
  have hz : (lit 0 : ℝ) = 0 := by simp
  have h2 : (lit 2 : ℝ) = 2 := by simp
  have q1 : ((0 : ℝ) <. 0) = false := by rw [lt_real_false]
  have q2 : ((convR a f).aeps2 <. (0 : ℝ)) = false := by
    rw [lt_real_false]
    show 0 ≤ a * a * 1e-32
    positivity
  have p2 : sq (0 : ℝ) +. sq 0 = 0 := by simp [sq]
  have Zp : 0 < a * (1 - f) + ht := by linarith
  constructor
  · refine ⟨_, geocentric_real a f f1 _, ?_⟩
    simp only [Real.cos_pi_div_two, Real.sin_pi_div_two, mul_zero, zero_mul, one_pow, mul_one, ne_eq,
      OfNat.ofNat_ne_zero, not_false_eq_true, zero_pow, zero_add, d, w]
    unfold EllipsoidConverter.geocentricToGeodetic
    have q3 : ((a * (1 - f) + ht) <. (0 : ℝ)) = false := by rw [lt_real_false]; exact Zp.le
    simp only [p2, hz, h2, q1, q2, q3, Bool.false_eq_true, if_false, abs_real, abs_of_pos Zp, pi_real, div_real,
      sub_real]
    congr 1
    show a * (1 - f) + ht - a * (1 - f) = ht
    ring
  · refine ⟨_, geocentric_real a f f1 _, ?_⟩
    simp only [Real.cos_neg, Real.sin_neg, Real.cos_pi_div_two, Real.sin_pi_div_two, mul_zero, zero_mul, one_pow,
      mul_one, ne_eq, OfNat.ofNat_ne_zero, not_false_eq_true, zero_pow, zero_add, neg_sq, d, w, mul_neg]
    unfold EllipsoidConverter.geocentricToGeodetic
    have q3 : ((-(a * (1 - f) + ht)) <. (0 : ℝ)) = true := by rw [lt_real]; linarith
    simp only [p2, hz, h2, q1, q2, q3, Bool.false_eq_true, if_false, if_true, abs_real, abs_neg, abs_of_pos Zp,
      pi_real, div_real, sub_real, neg_real]
    congr 1
    show a * (1 - f) + ht - a * (1 - f) = ht
    ring

example : -((6378137 : ℝ) * (1 - 1 / 298)) < -6000000 := by norm_num

/-! ## C48 -/

open EllipsoidConverter in
/-- **C48.** Reflection in the equatorial plane negates the latitude and changes nothing else.  True in
every arithmetic in which negation is exact; stated here for exact arithmetic and every converter. -/
theorem C48_reflect (c : EllipsoidConverter ℝ) (x y z : ℝ) (hz : z ≠ 0) :
    c.geocentricToGeodetic ⟨x, y, -z⟩ =
      ⟨(c.geocentricToGeodetic ⟨x, y, z⟩).elong, -(c.geocentricToGeodetic ⟨x, y, z⟩).phi,
        (c.geocentricToGeodetic ⟨x, y, z⟩).height⟩ := by
  unfold geocentricToGeodetic
  simp only [abs_real, abs_neg, lt_real, lit_real, Rat.cast_zero]
  rcases lt_or_gt_of_ne hz with h | h
  · rw [if_neg (by linarith : ¬ (-z < 0)), if_pos h, neg_real, neg_neg]
  · rw [if_pos (by linarith : -z < 0), if_neg (by linarith : ¬ (z < 0)), neg_real]

/-- **C48.** The longitude is the polar angle of `(x, y)` off the axis and `0` on it. -/
theorem C48_longitude (c : EllipsoidConverter ℝ) (x y z : ℝ) :
    (c.geocentricToGeodetic ⟨x, y, z⟩).elong = Complex.arg ⟨x, y⟩ ∧
    √(x ^ 2 + y ^ 2) * Real.cos (c.geocentricToGeodetic ⟨x, y, z⟩).elong = x ∧
    √(x ^ 2 + y ^ 2) * Real.sin (c.geocentricToGeodetic ⟨x, y, z⟩).elong = y := by
  have key : (c.geocentricToGeodetic ⟨x, y, z⟩).elong = Complex.arg ⟨x, y⟩ := by
    unfold EllipsoidConverter.geocentricToGeodetic
    simp only [sq, mul_real, add_real, lt_real, lit_real, Rat.cast_zero, atan2_real]
    split
    · rfl
    · rename_i h
      have hx : x = 0 := by nlinarith [mul_self_nonneg x, mul_self_nonneg y]
      have hy : y = 0 := by nlinarith [mul_self_nonneg x, mul_self_nonneg y]
      rw [hx, hy]
      exact Complex.arg_zero.symm
  refine ⟨key, ?_, ?_⟩ <;> rw [key]
  · have := Complex.norm_mul_cos_arg ⟨x, y⟩
    rwa [Complex.norm_def, Complex.normSq_mk, ← pow_two, ← pow_two] at this
  · have := Complex.norm_mul_sin_arg ⟨x, y⟩
    rwa [Complex.norm_def, Complex.normSq_mk, ← pow_two, ← pow_two] at this

/-- **C48.** Latitude and height depend on `x`, `y` only through `x² + y²`. -/
theorem C48_axial_symmetry (c : EllipsoidConverter ℝ) (x y x' y' z : ℝ)
    (h : x ^ 2 + y ^ 2 = x' ^ 2 + y' ^ 2) :
    (c.geocentricToGeodetic ⟨x, y, z⟩).phi = (c.geocentricToGeodetic ⟨x', y', z⟩).phi ∧
    (c.geocentricToGeodetic ⟨x, y, z⟩).height = (c.geocentricToGeodetic ⟨x', y', z⟩).height := by
  have h' : x * x + y * y = x' * x' + y' * y' := by linarith
  unfold EllipsoidConverter.geocentricToGeodetic
  simp only [sq, mul_real, add_real, h']
  exact ⟨rfl, rfl⟩

example : (3 : ℝ) ^ 2 + 4 ^ 2 = 0 ^ 2 + (-5) ^ 2 := by norm_num

/-- **C48.** On the axis: latitude `±π/2` by the sign of `z`, height `|z|` minus the polar radius. -/
theorem C48_axis (a f : ℝ) (c : EllipsoidConverter ℝ) (h : EllipsoidConverter.new ⟨a, f⟩ = .ok c) (z : ℝ) :
    c.geocentricToGeodetic ⟨0, 0, z⟩ =
      ⟨0, if z < 0 then -(Real.pi / 2) else Real.pi / 2, |z| - a * (1 - f)⟩ := by
  obtain ⟨f0, f1, ha, rfl⟩ := conv_eq h
  have q2 : ((convR a f).aeps2 <. (0 : ℝ)) = false := by
    rw [lt_real_false]
    show 0 ≤ a * a * 1e-32
    positivity
  have q1 : ((0 : ℝ) <. 0) = false := by rw [lt_real_false]
  have p2 : sq (0 : ℝ) +. sq 0 = 0 := by simp [sq]
  have hz : (lit 0 : ℝ) = 0 := by simp
  have h2 : (lit 2 : ℝ) = 2 := by simp
  unfold EllipsoidConverter.geocentricToGeodetic
  simp only [p2, hz, h2, q1, q2, Bool.false_eq_true, if_false, abs_real, pi_real, div_real, sub_real, neg_real,
    lt_real]
  rfl

/-- **C48.** Latitudes are in `[-π/2, π/2]`, longitudes in `(-π, π]`. -/
theorem C48_ranges (c : EllipsoidConverter ℝ) (v : Vec3 ℝ) :
    |(c.geocentricToGeodetic v).phi| ≤ Real.pi / 2 ∧
    -Real.pi < (c.geocentricToGeodetic v).elong ∧ (c.geocentricToGeodetic v).elong ≤ Real.pi := by
  have k := (C48_longitude c v.x v.y v.z).1
  refine ⟨?_, ?_, ?_⟩
  · unfold EllipsoidConverter.geocentricToGeodetic
    have pp := Real.pi_pos
    have h2 : (lit 2 : ℝ) = 2 := by simp
    have key : |(if (c.aeps2 <. sq v.x +. sq v.y) = true
        then c.latHeight (sq v.x +. sq v.y) (Arith.abs v.z)
        else (Arith.pi /. lit 2, Arith.abs v.z -. c.b)).1| ≤ Real.pi / 2 := by
      split
      · unfold EllipsoidConverter.latHeight
        simp only [atan_real]
        rw [abs_le]
        exact ⟨(Real.neg_pi_div_two_lt_arctan _).le.trans' (by linarith), (Real.arctan_lt_pi_div_two _).le⟩
      · simp only [pi_real, div_real, h2]
        rw [abs_of_pos (by positivity)]
    simp only
    split
    · rw [neg_real, abs_neg]; exact key
    · exact key
  · rw [k]; exact Complex.neg_pi_lt_arg _
  · rw [k]; exact Complex.arg_le_pi _

/-- **C48** (f64). The reflection symmetry holds bit for bit in `f64`, for every converter, every finite or
infinite non-zero `z`, every `x`, `y` (NaN included) and every libm. -/
theorem C48_reflect_f64 [Libm F64] (c : EllipsoidConverter F64) (x y z : F64)
    (hz : (z <. lit 0) = true ∨ ((lit 0 : F64) <. z) = true) :
    c.geocentricToGeodetic ⟨x, y, Arith.neg z⟩ =
      ⟨(c.geocentricToGeodetic ⟨x, y, z⟩).elong, Arith.neg (c.geocentricToGeodetic ⟨x, y, z⟩).phi,
        (c.geocentricToGeodetic ⟨x, y, z⟩).height⟩ := by
  have nn : ∀ w : F64, Arith.neg (Arith.neg w) = w := by
    intro w; cases w <;> simp [Arith.neg, F64.neg]
  have an : Arith.abs (Arith.neg z) = Arith.abs z := by
    cases z <;> simp [Arith.abs, Arith.neg, F64.neg, F64.abs]
  obtain ⟨z0, l0⟩ : ∃ h, (lit 0 : F64) = F64.fin false 0 h :=
    ⟨⟨by decide, by decide +kernel⟩, by decide +kernel⟩
  have ln : ∀ w : F64, ((Arith.neg w) <. lit 0) = ((lit 0 : F64) <. w) := by
    intro w
    rw [l0]
    cases w <;> simp [Arith.neg, F64.neg, Arith.lt, F64.lt]
    rename_i s n h
    cases s <;> simp [F64.sval]
  have asym : ∀ w : F64, (w <. lit 0) = true → ((lit 0 : F64) <. w) = true → False := by
    intro w
    rw [l0]
    cases w <;> simp [Arith.lt, F64.lt]
    rename_i s n h
    cases s <;> simp [F64.sval]
  unfold EllipsoidConverter.geocentricToGeodetic
  simp only [an, ln]
  rcases hz with h | h
  · have h' : ¬ ((lit 0 : F64) <. z) = true := fun h' => asym z h h'
    rw [if_neg h', if_pos h, nn]
  · have h' : ¬ (z <. lit 0) = true := fun h' => asym z h' h
    rw [if_pos h, if_neg h']

/-- Any negative or positive number will do, the smallest ones and the infinities included. -/
example : ((lit (-(1 / 2 ^ 1074)) : F64) <. lit 0) = true ∧ ((lit 0 : F64) <. F64.inf false) = true := by decide +kernel

/-- **C48** (finding). A valid ellipsoid and a finite point inside it for which the returned height is NaN,
whatever the libm: on the equatorial plane at distance `a e²` (the cusp of the evolute). -/
theorem C48_nan_witness [Libm F64] :
    ∃ c : EllipsoidConverter F64, EllipsoidConverter.new ⟨lit 1, lit 0.5⟩ = .ok c ∧
      (c.geocentricToGeodetic ⟨lit 0.75, lit 0, lit 0⟩).height = .nan := by
  refine ⟨⟨⟨lit 1, lit 0.5⟩, lit 1e-32, lit 0.75, lit 0.84375, lit 0.25, lit 0.5, lit 0.5⟩, by decide +kernel, ?_⟩
  unfold EllipsoidConverter.geocentricToGeodetic
  simp only
  rw [if_pos (by decide +kernel)]
  unfold EllipsoidConverter.latHeight
  simp only
  decide +kernel

end Verif
