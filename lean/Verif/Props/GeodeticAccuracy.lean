import Verif.Lemmas.LibmAcc
import Verif.Props.SunAngle
import Verif.Props.Constants

/-!
# Accuracy of `Geodetic::zenith` and `geodetic_to_geocentric` in binary64
-/

namespace Verif
open Arith F64

theorem degree_nb : NB (DEGREE : F64) (Real.pi / 180) (2 / 10 ^ 18) (0.0175) := by
  obtain ⟨p, w, a, m, d, -, -, -, -, hd, -, -, -, -, -, -, h⟩ := C61_constants_f64
  have := (NB.of_is hd le_rfl).shift (b := Real.pi / 180) h.le (E := 2 / 10 ^ 18) (M := |(d : ℝ)| + 1 / 2 ^ 59) ⟨by norm_num, le_rfl⟩
  refine this.remag ?_
  rw [abs_of_pos (by positivity)]
  have := Real.pi_lt_d2
  norm_num at this ⊢
  linarith

/-- Degrees to radians. -/
theorem deg_nb {x : F64} {l : ℚ} (hx : Is x l) (hl : |l| ≤ 360) :
    NB (x *. DEGREE) (l * (Real.pi / 180)) (15 / 10 ^ 16) 6.3 :=
  (NB.of_is hx (M := 360) (by exact_mod_cast hl)).mul degree_nb (by norm_num)

variable [Libm F64] (hL : LibmAcc)
include hL

theorem trig_nb {x : F64} {l : ℚ} (hx : Is x l) (hl : |l| ≤ 360) :
    NB (Libm.cos (x *. DEGREE)) (Real.cos (l * (Real.pi / 180))) (24 / 10 ^ 16) 1 ∧
    NB (Libm.sin (x *. DEGREE)) (Real.sin (l * (Real.pi / 180))) (24 / 10 ^ 16) 1 :=
  ⟨hL.nbCos (deg_nb hx hl) (by norm_num), hL.nbSin (deg_nb hx hl) (by norm_num)⟩

/-- **C71.** For every finite longitude and latitude up to 360 degrees in magnitude and every library accurate to
`2^-50`, every component of the `f64` zenith vector is within `5e-15` of the unit normal
`(cos φ cos λ, cos φ sin λ, sin φ)`. -/
theorem C71_zenith_f64 (g : Geodetic360 F64) (l p : ℚ) (hl : Is g.lon l) (hp : Is g.lat p) (l1 : |l| ≤ 360)
    (p1 : |p| ≤ 360) (lam phi : ℝ) (hlam : lam = l * (Real.pi / 180)) (hphi : phi = p * (Real.pi / 180)) :
    Near (Geodetic.from360 g).zenith.x (Real.cos phi * Real.cos lam) (5 / 10 ^ 15) ∧
    Near (Geodetic.from360 g).zenith.y (Real.cos phi * Real.sin lam) (5 / 10 ^ 15) ∧
    Near (Geodetic.from360 g).zenith.z (Real.sin phi) (5 / 10 ^ 15) := by
  subst hlam hphi
  obtain ⟨c1, s1⟩ := trig_nb hL hl l1
  obtain ⟨c2, s2⟩ := trig_nb hL hp p1
  exact ⟨(c2.mul c1 (E := 5 / 10 ^ 15) (M := 1) (by norm_num)).near, (c2.mul s1 (E := 5 / 10 ^ 15) (M := 1) (by norm_num)).near,
    s2.near.mono (by norm_num)⟩

/-- **C71.** For every finite longitude and latitude up to 360 degrees in magnitude, every finite height up to ten
thousand kilometres in magnitude, and every library accurate to `2^-50`: the conversion by the WGS84 converter succeeds
and every coordinate is within `0.3` micrometres of the point of the WGS84 ellipsoid with that latitude and longitude,
moved along the normal by the height. -/
theorem C71_geocentric_f64 (w : EllipsoidConverter F64) (hw : EllipsoidConverter.new WGS84 = .ok w) (g : Geodetic360 F64)
    (l p h : ℚ) (hl : Is g.lon l) (hp : Is g.lat p) (hh : Is g.height h) (l1 : |l| ≤ 360) (p1 : |p| ≤ 360)
    (h1 : |h| ≤ 10 ^ 7) (lam phi k N : ℝ) (hlam : lam = l * (Real.pi / 180)) (hphi : phi = p * (Real.pi / 180))
    (hk : k = (1 - 1 / 298.257223563) ^ 2) (hN : N = 6378137 / √(Real.cos phi ^ 2 + k * Real.sin phi ^ 2)) :
    ∃ v, w.geodeticToGeocentric (Geodetic.from360 g) = .ok v ∧
      Near v.x ((N + h) * Real.cos phi * Real.cos lam) (3 / 10 ^ 7) ∧
      Near v.y ((N + h) * Real.cos phi * Real.sin lam) (3 / 10 ^ 7) ∧
      Near v.z ((k * N + h) * Real.sin phi) (3 / 10 ^ 7) := by
  have hel := new_el hw
  have i1 : Is (lit 1 : F64) 1 := by have := Is.lit_int 1 (by norm_num); norm_num at this; exact this
  have i0 : Is (lit 0 : F64) 0 := by have := Is.lit_int 0 (by norm_num); norm_num at this; exact this
  have n1 : NB (lit 1 : F64) 1 0 1 := NB.of_is' i1 (by norm_num) (by norm_num)
  have na : NB (lit 6378137 : F64) 6378137 0 6378137 :=
    NB.of_is' (by have := Is.lit_int 6378137 (by norm_num); norm_num at this; exact this) (by norm_num) (by norm_num)
  have nf : NB (WGS84 : Ellipsoid F64).f (1 / 298.257223563) (1 / 10 ^ 18) 0.0034 :=
    n1.div (NB.lit' 298.257223563 (a := 298.257223563) (E := 4 / 10 ^ 14) (M := 299) (by norm_num) (by norm_num))
      (β := 298) (by norm_num) (by norm_num) (by norm_num)
  have nw0 : NB (lit 1 -. (WGS84 : Ellipsoid F64).f) (1 - 1 / 298.257223563) (12 / 10 ^ 17) 1 :=
    (n1.sub nf (E := 12 / 10 ^ 17) (M := 1.1) (by norm_num)).remag (by norm_num [abs_le])
  have nk := (nw0.mul nw0 (E := 36 / 10 ^ 17) (M := 1) (by norm_num)).congr (b := k) (by rw [hk]; ring)
  obtain ⟨c1, s1⟩ := trig_nb hL hl l1
  obtain ⟨c2, s2⟩ := trig_nb hL hp p1
  rw [← hlam] at c1 s1
  rw [← hphi] at c2 s2
  have nd := ((c2.mul c2 (E := 50 / 10 ^ 16) (M := 1) (by norm_num)).add
    ((nk.mul s2 (E := 29 / 10 ^ 16) (M := 1) (by norm_num)).mul s2 (E := 55 / 10 ^ 16) (M := 1) (by norm_num))
    (E := 108 / 10 ^ 16) (M := 2) (by norm_num)).congr (b := Real.cos phi ^ 2 + k * Real.sin phi ^ 2) (by ring)
  have hcs := Real.sin_sq_add_cos_sq phi
  have k1 : (0.993 : ℝ) ≤ k := by rw [hk]; norm_num
  have k2 : k ≤ 1 := by rw [hk]; norm_num
  have d1 : (0.993 : ℝ) ≤ Real.cos phi ^ 2 + k * Real.sin phi ^ 2 := by nlinarith [sq_nonneg (Real.sin phi), sq_nonneg (Real.cos phi)]
  have d2 : Real.cos phi ^ 2 + k * Real.sin phi ^ 2 ≤ 1 := by nlinarith [sq_nonneg (Real.sin phi)]
  have nd' := nd.remag (M := 1) (by rw [abs_of_nonneg (by linarith)]; exact d2)
  obtain ⟨r, ir, er, -⟩ := nd'.exists_is
  have rpos : (0 : ℚ) < r := by
    have := (abs_le.mp er).1
    have : (0 : ℝ) < r := by norm_num at this; linarith
    exact_mod_cast this
  have nsq := nd'.sqrt (β := 0.996) (C := 1) (E := 111 / 10 ^ 16) (M := 1) (by norm_num) (by norm_num at d1 ⊢; linarith) (by norm_num)
    (by norm_num) (by norm_num) (by norm_num)
  have b1 : (0.996 : ℝ) ≤ |√(Real.cos phi ^ 2 + k * Real.sin phi ^ 2)| := by
    rw [abs_of_nonneg (Real.sqrt_nonneg _)]
    exact Real.le_sqrt_of_sq_le (by norm_num at d1 ⊢; linarith)
  have nac := (na.div nsq (β := 0.996) (E := 74 / 10 ^ 9) (M := 6403753) b1 (by norm_num) (by norm_num)).congr (b := N) hN.symm
  have nh := NB.of_is hh (M := 10 ^ 7) (by exact_mod_cast h1)
  have nr := (nac.add nh (E := 78 / 10 ^ 9) (M := 16403753) (by norm_num)).mul c2 (E := 121 / 10 ^ 9) (M := 16403753) (by norm_num)
  have nz := ((nk.mul nac (E := 79 / 10 ^ 9) (M := 6403753) (by norm_num)).add nh (E := 83 / 10 ^ 9) (M := 16403753) (by norm_num)).mul
    s2 (E := 126 / 10 ^ 9) (M := 16403753) (by norm_num)
  have rx := (nr.mul c1 (E := 3 / 10 ^ 7) (M := 16403753) (by norm_num)).near
  have ry := (nr.mul s1 (E := 3 / 10 ^ 7) (M := 16403753) (by norm_num)).near
  have rz := nz.near.mono (e' := 3 / 10 ^ 7) (by norm_num)
  refine ⟨⟨_, _, _⟩, ?_, rx, ry, rz⟩
  unfold EllipsoidConverter.geodeticToGeocentric
  rw [hel]
  simp only [Geodetic.from360]
  exact if_pos (by rw [WGS84] at *; rw [i0.lt ir]; simpa using rpos)

omit [Libm F64] hL in
/-- The hypotheses hold for a library that exists, the WGS84 converter and 45°N 90°E at 100 m. -/
example : ∃ L : Libm F64, @LibmAcc L ∧ ∃ w, EllipsoidConverter.new (WGS84 : Ellipsoid F64) = .ok w ∧
    ∃ g : Geodetic360 F64, Is g.lon (90 : ℤ) ∧ Is g.lat (45 : ℤ) ∧ Is g.height (100 : ℤ) := by
  obtain ⟨w, hw⟩ := wgs84_f64
  exact ⟨goodLibm, exists_libmAcc, w, hw, ⟨Arith.ofInt 90, Arith.ofInt 45, Arith.ofInt 100⟩, Is.ofInt 90 (by norm_num),
    Is.ofInt 45 (by norm_num), Is.ofInt 100 (by norm_num)⟩

end Verif
