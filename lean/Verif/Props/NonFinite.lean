import Verif.Props.EarthAngle
import Verif.Props.Ellipsoid
import Verif.Lemmas.EpvFrom
import Verif.Model.SunAngle

/-!
# C113: arguments that are not numbers

Code: `tofas/src/frames.rs`, `earth.rs`, `ellipsoid.rs`, `tofas_extras/src/sun_angle.rs`.
-/

namespace Verif

open Arith F64

/-- What the C standard requires of the functions at NaN and at the infinities. -/
structure NanLibm [Libm F64] : Prop where
  sin : ∀ x : F64, isFin x = false → Libm.sin x = .nan
  cos : ∀ x : F64, isFin x = false → Libm.cos x = .nan
  acos : Libm.acos (.nan : F64) = .nan
  atan : Libm.atan (.nan : F64) = .nan

theorem bad_add_left {x : F64} (y : F64) (h : isFin x = false) : isFin (x +. y) = false := by
  rcases not_fin_cases h with rfl | ⟨s, rfl⟩
  · rfl
  · cases y with
    | nan => rfl
    | inf t => cases s <;> cases t <;> rfl
    | fin t n hn => rfl

theorem bad_add_right (x : F64) {y : F64} (h : isFin y = false) : isFin (x +. y) = false := by
  rcases not_fin_cases h with rfl | ⟨s, rfl⟩
  · cases x <;> rfl
  · cases x with
    | nan => rfl
    | inf t => cases s <;> cases t <;> rfl
    | fin t n hn => rfl

theorem bad_neg {x : F64} (h : isFin x = false) : isFin (Arith.neg x) = false := by
  rcases not_fin_cases h with rfl | ⟨s, rfl⟩ <;> rfl

theorem bad_sub_left {x : F64} (y : F64) (h : isFin x = false) : isFin (x -. y) = false := bad_add_left _ h
theorem bad_sub_right (x : F64) {y : F64} (h : isFin y = false) : isFin (x -. y) = false := bad_add_right _ (bad_neg h)

theorem bad_mul_left {x : F64} (y : F64) (h : isFin x = false) : isFin (x *. y) = false := by
  rcases not_fin_cases h with rfl | ⟨s, rfl⟩
  · rfl
  · cases y with
    | nan => rfl
    | inf t => rfl
    | fin t n hn =>
      show isFin (if n = 0 then F64.nan else F64.inf _) = false
      split <;> rfl

theorem bad_mul_right (x : F64) {y : F64} (h : isFin y = false) : isFin (x *. y) = false := by
  rcases not_fin_cases h with rfl | ⟨s, rfl⟩
  · cases x <;> rfl
  · cases x with
    | nan => rfl
    | inf t => rfl
    | fin t n hn =>
      show isFin (if n = 0 then F64.nan else F64.inf _) = false
      split <;> rfl

theorem bad_div {x y : F64} (h : isFin x = false) (hy : isFin y = true) : isFin (x /. y) = false := by
  rcases not_fin_cases h with rfl | ⟨s, rfl⟩
  · cases y <;> rfl
  · cases y with
    | nan => cases hy
    | inf t => cases hy
    | fin t n hn => rfl

theorem bad_rem {x : F64} (y : F64) (h : isFin x = false) : (x %. y) = .nan := by
  rcases not_fin_cases h with rfl | ⟨s, rfl⟩
  · cases y <;> rfl
  · cases y <;> rfl

theorem addNan (x : F64) : (x +. F64.nan) = .nan := by cases x <;> rfl
theorem nanAdd (x : F64) : (F64.nan +. x) = .nan := rfl
theorem subNan (x : F64) : (x -. F64.nan) = .nan := by cases x <;> rfl
theorem nanSub (x : F64) : (F64.nan -. x) = .nan := rfl
theorem mulNan (x : F64) : (x *. F64.nan) = .nan := by cases x <;> rfl
theorem nanMul (x : F64) : (F64.nan *. x) = .nan := rfl
theorem divNan (x : F64) : (x /. F64.nan) = .nan := by cases x <;> rfl
theorem nanDiv (x : F64) : (F64.nan /. x) = .nan := rfl
theorem lt_nan (x : F64) : (x <. F64.nan) = false := by cases x <;> rfl
theorem nan_lt (x : F64) : (F64.nan <. x) = false := rfl

example : isFin F64.nan = false ∧ ∀ s, isFin (F64.inf s) = false := ⟨rfl, fun _ => rfl⟩

/-! ## Matrices -/

/-- Every entry is NaN. -/
def AllNan (m : Mat3 F64) : Prop := ∀ i j, m.get i j = .nan

theorem compose_get (a b : Mat3 F64) (i j : Fin 3) : (a.compose b).get i j =
    ((lit 0 +. a.get i 0 *. b.get 0 j) +. a.get i 1 *. b.get 1 j) +. a.get i 2 *. b.get 2 j := by
  fin_cases i <;> fin_cases j <;> rfl

/-- One NaN among the six factors of an entry of a product is enough. -/
theorem compose_bad {a b : Mat3 F64} {i j : Fin 3} (k : Fin 3) (h : a.get i k = .nan ∨ b.get k j = .nan) :
    (a.compose b).get i j = .nan := by
  rw [compose_get]
  have : (a.get i k *. b.get k j) = .nan := by rcases h with h | h <;> rw [h]; exacts [nanMul _, mulNan _]
  fin_cases k <;> simp only [Fin.zero_eta, Fin.mk_one, Fin.reduceFinMk] at this <;> rw [this] <;> simp only [addNan, nanAdd]

theorem AllNan.left {a : Mat3 F64} (h : AllNan a) (b : Mat3 F64) : AllNan (a.compose b) := fun i _ => compose_bad 0 (.inl (h i 0))
theorem AllNan.right (a : Mat3 F64) {b : Mat3 F64} (h : AllNan b) : AllNan (a.compose b) := fun _ j => compose_bad 0 (.inr (h 0 j))

/-- A product whose left factor has a column of NaN. -/
theorem allNan_of_col {a : Mat3 F64} (b : Mat3 F64) {k : Fin 3} (h : ∀ i, a.get i k = .nan) : AllNan (a.compose b) :=
  fun i _ => compose_bad k (.inl (h i))

variable [Libm F64]

/-- A rotation by an angle that is no number has NaN in the column after its axis. -/
theorem rotation_bad (hN : NanLibm) (axis : Fin 3) {t : F64} (h : isFin t = false) :
    (Mat3.rotation axis t).get (axis + 1) (axis + 1) = .nan ∧ (Mat3.rotation axis t).get (axis + 1) (axis + 2) = .nan ∧
    (Mat3.rotation axis t).get (axis + 2) (axis + 1) = .nan ∧ (Mat3.rotation axis t).get (axis + 2) (axis + 2) = .nan := by
  unfold Mat3.rotation
  rw [hN.cos t h, hN.sin t h]
  fin_cases axis <;> refine ⟨rfl, rfl, rfl, rfl⟩

/-- Two rotations after anything, the first by an angle that is no number. -/
theorem rotate_nan (hN : NanLibm) (m : Mat3 F64) (axis : Fin 3) {t : F64} (h : isFin t = false) (b : Mat3 F64) :
    AllNan ((m.compose (Mat3.rotation axis t)).compose b) :=
  allNan_of_col b (k := axis + 1) fun _ => compose_bad (axis + 1) (.inr (rotation_bad hN axis h).1)

omit [Libm F64] in
theorem centuries_bad {x y : F64} (h : isFin x = false ∨ isFin y = false) : isFin (centuries (x, y)) = false := by
  refine bad_div ?_ (by decide +kernel)
  rcases h with h | h
  · exact bad_add_left _ (bad_sub_left _ h)
  · exact bad_add_right _ h

theorem nutationMatrix_nan_nf (hN : NanLibm) {e : F64} (he : isFin e = false) (dp de : F64) : AllNan (nutationMatrix e dp de) :=
  (rotate_nan hN _ _ (bad_neg (bad_add_left _ he)) _).left _

/-- **C113.** If either part of the date is NaN or infinite, every entry of the matrix of `precession_nutation` is NaN, whatever
the C library does beyond what the C standard requires of it. -/
theorem C113_precession_nutation (hN : NanLibm) (x y : F64) (h : isFin x = false ∨ isFin y = false) :
    AllNan (precessionNutation (x, y)) := by
  refine AllNan.left (nutationMatrix_nan_nf hN ?_ _ _) _
  unfold precessionRate
  exact bad_add_right _ (bad_mul_right _ (centuries_bad h))

/-- **C113.** The same for `celestial_to_intermediate`. -/
theorem C113_celestial_to_intermediate (hN : NanLibm) (x y : F64) (h : isFin x = false ∨ isFin y = false) :
    AllNan (celestialToIntermediate (x, y)) := by
  have hp := C113_precession_nutation hN x y h
  unfold celestialToIntermediate celestialToIntermediateBpn xyFromBpn celestialToIntermediateXY celestialToIntermediateFromXys
  simp only [hp 2 0, hp 2 1]
  refine rotate_nan hN _ _ ?_ _
  have : Libm.atan (Arith.sqrt ((((F64.nan *. F64.nan) +. (F64.nan *. F64.nan) : F64)) /. (lit 1 -. ((F64.nan *. F64.nan) +. (F64.nan *. F64.nan))))) = F64.nan :=
    hN.atan
  rw [this]
  rfl

omit [Libm F64] in
theorem rotationAngle_nan {x y : F64} (h : isFin x = false ∨ isFin y = false) : rotationAngle (x, y) = .nan := by
  unfold rotationAngle
  refine anp_not_fin (bad_mul_right _ (bad_add_right _ (bad_mul_right _ ?_)))
  dsimp only
  split
  · rcases h with h | h
    · exact bad_add_left _ h
    · exact bad_add_right _ (bad_sub_left _ h)
  · rcases h with h | h
    · exact bad_add_right _ (bad_sub_left _ h)
    · exact bad_add_left _ h

/-- **C113.** One NaN or infinity among the six numbers given to `celestial_to_terrestrial` (two dates in two parts, two angles of
polar motion) makes all nine entries of the result NaN. -/
theorem C113_celestial_to_terrestrial (hN : NanLibm) (x y u w xp yp : F64)
    (h : isFin x = false ∨ isFin y = false ∨ isFin u = false ∨ isFin w = false ∨ isFin xp = false ∨ isFin yp = false) :
    AllNan (celestialToTerrestrial (x, y) (u, w) xp yp) := by
  unfold celestialToTerrestrial celestialToTerrestrialFromCio
  have pm : isFin xp = false ∨ isFin yp = false → AllNan (polarMotionMatrix xp yp (lit 0)) := by
    rintro (h | h)
    · exact rotate_nan hN _ _ (bad_neg h) _
    · exact (rotate_nan hN _ _ (bad_neg h) _).left _
  have er : isFin u = false ∨ isFin w = false →
      AllNan ((polarMotionMatrix xp yp (lit 0)).compose ((Mat3.rotation 2 (rotationAngle (u, w))).compose (celestialToIntermediate (x, y)))) := by
    intro h i j
    refine compose_bad 0 (.inr (compose_bad 0 (.inl ?_)))
    exact (rotation_bad hN 2 (t := rotationAngle (u, w)) (by rw [rotationAngle_nan h]; rfl)).1
  rcases h with h | h | h | h | h | h
  · exact .right _ (.right _ (C113_celestial_to_intermediate hN x y (.inl h)))
  · exact .right _ (.right _ (C113_celestial_to_intermediate hN x y (.inr h)))
  · exact er (.inl h)
  · exact er (.inr h)
  · exact (pm (.inl h)).left _
  · exact (pm (.inr h)).left _

/-! ## The ephemeris -/

omit [Libm F64] in
theorem foldTerms_const {R : List (Epv.Dec × Epv.Dec × Epv.Dec)} (hR : R ≠ []) {f : F64 × F64 → F64 → F64 → F64 → F64 × F64}
    {z : F64 × F64} (hf : ∀ acc a b c, f acc a b c = z) (acc : F64 × F64) : foldTerms R f acc = z := by
  unfold foldTerms
  obtain ⟨L, d, rfl⟩ := (List.eq_nil_or_concat R).resolve_left hR |>.imp fun L h => h
  simp only [List.concat_eq_append, List.map_append, List.foldl_append, List.map_cons, List.map_nil, List.foldl_cons, List.foldl_nil, hf]

theorem term2_nan (hN : NanLibm) {t : F64} (h : isFin t = false) (t2 : F64) (acc : F64 × F64) (a b c : F64) :
    term2 t t2 acc a b c = (.nan, .nan) := by
  unfold term2
  have hp : isFin (b +. c *. t) = false := bad_add_right _ (bad_mul_right _ h)
  simp only [hN.cos _ hp, hN.sin _ hp, mulNan, addNan, subNan]

omit [Libm F64] in
theorem E2_ne : ∀ k, EpvRef.E2 k ≠ [] := by decide +kernel
omit [Libm F64] in
theorem S2_ne : ∀ k, EpvRef.S2 k ≠ [] := by decide +kernel

theorem axisFold_nan (hN : NanLibm) {t : F64} (h : isFin t = false) (t2 : F64) (k : Fin 3) :
    axisFold t t2 k = (.nan, .nan, .nan, .nan) := by
  have e1 : helioFold t t2 k = (.nan, .nan) := foldTerms_const (E2_ne k) (term2_nan hN h t2) _
  have e2 : ∀ acc, baryFold t t2 k acc = (.nan, .nan) := fun acc => foldTerms_const (S2_ne k) (term2_nan hN h t2) _
  unfold axisFold
  simp only [e1, e2, nanDiv]

/-- A vector of three NaN. -/
def nan3 : Vec3 F64 := ⟨.nan, .nan, .nan⟩

/-- **C113.** For a date with a part that is NaN or infinite the ephemeris returns the warning, and NaN in all twelve components. -/
theorem C113_ephemeris (hN : NanLibm) (x y : F64) (h : isFin x = false ∨ isFin y = false) :
    EarthPosVel.fromTDB (x, y) = .ok ⟨⟨nan3, nan3⟩, ⟨nan3, nan3⟩, true⟩ := by
  rw [fromTDB_fold]
  have ht : isFin (((x -. DJ00) +. y) /. DJY) = false := by
    refine bad_div ?_ (by decide +kernel)
    rcases h with h | h
    · exact bad_add_left _ (bad_sub_left _ h)
    · exact bad_add_right _ h
  unfold epvFold
  simp only [axisFold_nan hN ht]
  have i : toICRF nan3 = nan3 := by decide +kernel
  unfold nan3 at i ⊢
  rw [i]
  have w : (Arith.abs (((x -. DJ00) +. y) /. DJY) <. lit 100) = false := by
    rcases not_fin_cases ht with e | ⟨s, e⟩ <;> rw [e]
    · rfl
    · cases s <;> decide +kernel
  rw [w]
  rfl

/-! ## Positions -/

/-- **C113.** A latitude that is NaN or infinite is refused; with a longitude that is NaN or infinite the first two coordinates are NaN;
with such a height none of the three is a number. -/
theorem C113_geodetic_to_geocentric (hN : NanLibm) (c : EllipsoidConverter F64) (g : Geodetic F64) :
    (isFin g.phi = false → c.geodeticToGeocentric g = .error .badCoordinates) ∧
    (isFin g.elong = false → ∀ v, c.geodeticToGeocentric g = .ok v → v.x = .nan ∧ v.y = .nan) ∧
    (isFin g.height = false → ∀ v, c.geodeticToGeocentric g = .ok v → isFin v.x = false ∧ isFin v.y = false ∧ isFin v.z = false) := by
  unfold EllipsoidConverter.geodeticToGeocentric
  refine ⟨fun h => ?_, fun h v hv => ?_, fun h v hv => ?_⟩
  · simp only [hN.sin _ h, hN.cos _ h, mulNan, addNan, lt_nan]
    rfl
  · dsimp only at hv
    split at hv
    · cases hv
      simp only [hN.sin _ h, hN.cos _ h, mulNan, and_self]
    · cases hv
  · dsimp only at hv
    split at hv
    · cases hv
      exact ⟨bad_mul_left _ (bad_mul_left _ (bad_add_right _ h)), bad_mul_left _ (bad_mul_left _ (bad_add_right _ h)),
        bad_mul_left _ (bad_add_right _ h)⟩
    · cases hv

omit [Libm F64] in
theorem sq_nan : sq (F64.nan) = .nan := rfl

/-- **C113** (finding). `geocentric_to_geodetic` returns a pole for a point whose first or second coordinate is NaN: longitude 0, the
latitude of the north or south pole according to the sign of the third coordinate, and its distance from that pole as the height. -/
theorem C113_nan_is_pole (c : EllipsoidConverter F64) (v : Vec3 F64) (h : v.x = .nan ∨ v.y = .nan) :
    c.geocentricToGeodetic v = ⟨lit 0, if v.z <. lit 0 then Arith.neg (Arith.pi /. lit 2) else Arith.pi /. lit 2, Arith.abs v.z -. c.b⟩ := by
  have hp : (sq v.x +. sq v.y) = F64.nan := by
    rcases h with h | h <;> rw [h, sq_nan]
    · exact nanAdd _
    · exact addNan _
  unfold EllipsoidConverter.geocentricToGeodetic
  simp only [hp, lt_nan]
  simp

/-- **C113** (finding), a case: the point (NaN, 0, 6356752.5) is reported within a metre of the North Pole. -/
theorem C113_nan_is_pole_case : ∃ (w : EllipsoidConverter F64) (g : Geodetic F64) (h : ℚ), EllipsoidConverter.new WGS84 = .ok w ∧
    w.geocentricToGeodetic ⟨.nan, lit 0, lit 6356752.5⟩ = g ∧ g.elong = lit 0 ∧ g.phi = Arith.pi /. lit 2 ∧ Is g.height h ∧ |h| < 1 := by
  obtain ⟨w, hw, hb⟩ : ∃ w : EllipsoidConverter F64, EllipsoidConverter.new WGS84 = .ok w ∧
      isFin (Arith.abs (lit 6356752.5) -. w.b) = true ∧ |v (Arith.abs (lit 6356752.5) -. w.b)| < 1 := by
    cases hh : EllipsoidConverter.new (WGS84 : Ellipsoid F64) with
    | error e =>
      have k : isOk (EllipsoidConverter.new (WGS84 : Ellipsoid F64)) = true := by decide +kernel
      rw [hh] at k; cases k
    | ok w =>
      refine ⟨w, rfl, ?_⟩
      have e : w.b = (lit 6378137 : F64) *. Arith.sqrt (lit 1 -. ((lit 2 -. (lit 1 /. lit 298.257223563)) *. (lit 1 /. lit 298.257223563))) := by
        unfold EllipsoidConverter.new at hh
        dsimp only at hh
        split at hh
        · cases hh
        · split at hh
          · cases hh
          · split at hh
            · cases hh
            · cases hh; rfl
      rw [e]
      decide +kernel
  refine ⟨w, _, _, hw, rfl, ?_, ?_, ?_, hb.2⟩
  · rw [C113_nan_is_pole w _ (.inl rfl)]
  · rw [C113_nan_is_pole w _ (.inl rfl)]
    have : ((lit 6356752.5 : F64) <. lit 0) = false := by decide +kernel
    rw [this]; rfl
  · rw [C113_nan_is_pole w _ (.inl rfl)]
    exact ⟨hb.1, rfl⟩

/-- **C113.** A third coordinate that is NaN gives a NaN height. -/
theorem C113_geocentric_nan_z (c : EllipsoidConverter F64) (v : Vec3 F64) (h : v.z = .nan) :
    (c.geocentricToGeodetic v).height = .nan := by
  unfold EllipsoidConverter.geocentricToGeodetic
  rw [h]
  have a : Arith.abs F64.nan = F64.nan := rfl
  dsimp only
  rw [a]
  split
  · unfold EllipsoidConverter.latHeight
    simp only [nanMul, addNan, nanSub, nanDiv]
  · exact nanSub _


/-! ## The Sun angle -/

omit [Libm F64] in
theorem pair_bad_of {u : F64 × F64} {b : F64} (hu : isFin u.2 = false) :
    isFin (if u.2 <. u.1 then (u.1, u.2 +. b) else (u.1 +. b, u.2)).2 = false := by
  split
  · exact bad_add_left _ hu
  · exact hu

theorem angle_nan (hN : NanLibm) (a b : Vec3 F64) (h : a.x = .nan ∨ b.x = .nan) : Vec3.angle a b = .nan := by
  unfold Vec3.angle Vec3.dot
  have key : ∀ v : Vec3 F64, v.x = .nan → v.normalize.x = .nan := fun v hv => by
    show (_ *. v.x) = _
    rw [hv, mulNan]
  have : (a.normalize.x *. b.normalize.x) = F64.nan := by
    rcases h with h | h
    · rw [key a h, nanMul]
    · rw [key b h, mulNan]
  rw [this, nanAdd, nanAdd, hN.acos]

/-- **C113.** A time of day or an offset that is NaN or infinite, and a longitude that is, give a NaN zenith angle. -/
theorem C113_compute (hN : NanLibm) (c : SunAngleCalculator F64) (delta : F64) :
    (isFin c.fr = false ∨ isFin delta = false → ∃ r, c.compute delta = .ok r ∧ r.sza = .nan ∧ r.era = .nan ∧ r.earth = nan3 ∧ r.sun_e = nan3) ∧
    (c.zen.x = .nan → ∃ r, c.compute delta = .ok r ∧ r.sza = .nan) := by
  constructor
  · intro h
    have hj : isFin (c.jd1_date +. (c.fr +. delta /. lit 86400)) = false := by
      refine bad_add_right _ ?_
      rcases h with h | h
      · exact bad_add_left _ h
      · exact bad_add_right _ (bad_div h (by decide +kernel))
    unfold SunAngleCalculator.compute
    dsimp only
    generalize c.jd1_date +. (c.fr +. delta /. lit 86400) = j at hj
    have t1 : isFin (TAI.fromUTC (c.jd0, j) c.dat).2 = false := pair_bad_of (u := (c.jd0, j)) hj
    generalize TAI.fromUTC (c.jd0, j) c.dat = tai at t1
    have t2 : isFin (TT.fromTAI tai).2 = false := pair_bad_of t1
    generalize TT.fromTAI tai = tt at t2
    have t3 : isFin (TDB.fromTT tt c.dtr).2 = false := pair_bad_of t2
    generalize TDB.fromTT tt c.dtr = tdb at t3
    obtain ⟨b1, b2⟩ := tdb
    obtain ⟨a1, a2⟩ := tt
    rw [C113_ephemeris hN _ _ (.inr t3)]
    have e := rotationAngle_nan (x := c.jd0) (y := j +. c.dut1 /. lit 86400) (.inr (bad_add_left _ hj))
    have m := C113_celestial_to_terrestrial hN a1 a2 c.jd0 (j +. c.dut1 /. lit 86400) c.xp c.yp (.inr (.inl t2))
    generalize celestialToTerrestrial (a1, a2) (c.jd0, j +. c.dut1 /. lit 86400) c.xp c.yp = M at m
    have ap : M.transpose.apply ((nan3.neg).scale AUM) = nan3 := by
      have n : (nan3.neg).scale AUM = nan3 := by decide +kernel
      rw [n]
      unfold Mat3.apply nan3
      simp only [mulNan, nanAdd]
    refine ⟨_, rfl, ?_, e, rfl, ap⟩
    show Vec3.angle c.zen (M.transpose.apply ((nan3.neg).scale AUM)) = _
    rw [ap]
    exact angle_nan hN _ _ (.inr rfl)
  · intro h
    unfold SunAngleCalculator.compute
    simp only [fromTDB_fold]
    exact ⟨_, rfl, angle_nan hN _ _ (.inl h)⟩

/-- What a calculator was made from. -/
theorem new_inv {p : Profile} {q : SunAngleParameters F64} {c : SunAngleCalculator F64} (h : SunAngleCalculator.new p q = .ok c) :
    ∃ jd o w, q.date.toJulian p = .ok jd ∧ deltaAt p q.date q.time.toFractionOfDay = .ok (.ok o) ∧ EllipsoidConverter.new WGS84 = .ok w ∧
      w.geodeticToGeocentric (Geodetic.from360 q.position) = .ok c.p ∧
      c = { jd0 := jd.1, jd1_date := jd.2, dat := o.getD (lit 0), fr := q.time.toFractionOfDay, dut1 := lit (-0.072073685), dtr := lit 0,
            xp := lit 0.0349282 *. AS2R, yp := lit 0.4833163 *. AS2R, p := c.p, zen := (Geodetic.from360 q.position).zenith } := by
  unfold SunAngleCalculator.new at h
  dsimp only at h
  cases h1 : (q.date.toJulian p : Rust (F64 × F64)) with
  | error e => rw [h1] at h; cases h
  | ok jd =>
    cases h2 : deltaAt p q.date q.time.toFractionOfDay with
    | error e => rw [h1, h2] at h; cases h
    | ok o' =>
      cases o' with
      | error e => rw [h1, h2] at h; cases h
      | ok o =>
        cases h3 : EllipsoidConverter.new (WGS84 : Ellipsoid F64) with
        | error e => rw [h1, h2, h3] at h; cases h
        | ok w =>
          cases h4 : w.geodeticToGeocentric (Geodetic.from360 q.position) with
          | error e =>
            rw [h1, h2, h3] at h
            simp only [expect, ok_bind, h4] at h
            cases h
          | ok v =>
            rw [h1, h2, h3] at h
            simp only [expect, ok_bind, h4] at h
            cases h
            exact ⟨jd, o, w, rfl, rfl, rfl, h4, rfl⟩

/-- **C113.** `SunAngleCalculator::new` panics for every latitude that is NaN or infinite; if it succeeds for a longitude that is, then
every zenith angle computed is NaN; and the zenith angles do not depend on the height, NaN and infinities included. -/
theorem C113_calculator (hN : NanLibm) (p : Profile) (q : SunAngleParameters F64) :
    (isFin q.position.lat = false → ∀ c, SunAngleCalculator.new p q ≠ .ok c) ∧
    (isFin q.position.lon = false → ∀ c, SunAngleCalculator.new p q = .ok c → ∀ delta, ∃ r, c.compute delta = .ok r ∧ r.sza = .nan) ∧
    (∀ h c c', SunAngleCalculator.new p q = .ok c → SunAngleCalculator.new p { q with position := { q.position with height := h } } = .ok c' →
      ∀ delta r r', c.compute delta = .ok r → c'.compute delta = .ok r' → r.sza = r'.sza) := by
  refine ⟨fun h c hc => ?_, fun h c hc delta => ?_, fun hh c c' hc hc' delta r r' hr hr' => ?_⟩
  · obtain ⟨jd, o, w, -, -, -, h4, -⟩ := new_inv hc
    rw [(C113_geodetic_to_geocentric hN w _).1 (bad_mul_left _ h)] at h4
    cases h4
  · obtain ⟨jd, o, w, -, -, -, -, e⟩ := new_inv hc
    refine (C113_compute hN c delta).2 ?_
    rw [e]
    show (Libm.cos _ *. Libm.cos (q.position.lon *. DEGREE)) = _
    rw [hN.cos _ (bad_mul_left _ h), mulNan]
  · obtain ⟨jd, o, w, h1, h2, h3, h4, e⟩ := new_inv hc
    obtain ⟨jd', o', w', h1', h2', h3', h4', e'⟩ := new_inv hc'
    dsimp only at h1' h2'
    rw [h1] at h1'; cases h1'
    rw [h2] at h2'; cases h2'
    rw [e] at hr
    rw [e'] at hr'
    unfold SunAngleCalculator.compute at hr hr'
    simp only [fromTDB_fold, ok_bind] at hr hr'
    cases hr
    cases hr'
    rfl

/-- A library that meets the requirements at NaN and infinity and is accurate elsewhere. -/
example : ∃ L : Libm F64, @NanLibm L ∧ @LibmAcc L := by
  classical
  let G : Libm F64 := goodLibm
  let L : Libm F64 :=
    { sin := fun x => if isFin x = false then .nan else G.sin x
      cos := fun x => if isFin x = false then .nan else G.cos x
      tan := fun x => if isFin x = false then .nan else G.tan x
      acos := fun x => if isFin x = false then .nan else G.acos x
      asin := fun x => if isFin x = false then .nan else G.asin x
      atan := fun x => if isFin x = false then .nan else G.atan x
      atan2 := fun y x => if isFin x = false ∨ isFin y = false then .nan else G.atan2 y x }
  refine ⟨L, ⟨fun x h => if_pos h, fun x h => if_pos h, if_pos rfl, if_pos rfl⟩, ?_⟩
  have k : ∀ {x : F64} {a : ℚ}, Is x a → ¬ isFin x = false := fun h => by rw [h.1]; decide
  refine ⟨?_, ?_, ?_, ?_, ?_⟩
  · intro x a h; show _ → Near (if _ then _ else _) _ _; rw [if_neg (k h)]; exact @LibmAcc.sin goodLibm exists_libmAcc x a h
  · intro x a h; show _ → Near (if _ then _ else _) _ _; rw [if_neg (k h)]; exact @LibmAcc.cos goodLibm exists_libmAcc x a h
  · intro x a h; show _ → Near (if _ then _ else _) _ _; rw [if_neg (k h)]; exact @LibmAcc.atan goodLibm exists_libmAcc x a h
  · intro x a h; show _ → Near (if _ then _ else _) _ _; rw [if_neg (k h)]; exact @LibmAcc.acos goodLibm exists_libmAcc x a h
  · intro y x b a hy hx
    show _ → ∃ k : ℤ, |k| ≤ 1 ∧ Near (if isFin x = false ∨ isFin y = false then F64.nan else G.atan2 y x) _ _
    rw [if_neg (by rintro (h | h); exacts [k hx h, k hy h])]
    exact @LibmAcc.atan2 goodLibm exists_libmAcc y x b a hy hx

end Verif
