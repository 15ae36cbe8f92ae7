import Verif.Lemmas.SunNew
import Verif.Props.EarthAccuracy

/-!
# Accuracy of the Sun angle calculator in binary64 (C72)
-/

namespace Verif
open Arith F64 Spec Matrix

/-- All the fields of the result of `compute`, in any arithmetic. -/
theorem compute_geometry {α : Type} [Arith α] [Libm α] (c : SunAngleCalculator α) (δ : α) {r : SunAngleResult α}
    (hr : c.compute δ = .ok r) : ∃ e, EarthPosVel.fromTDB (TDB.fromTT r.tt c.dtr) = .ok e ∧ r.earth = e.heliocentric.p ∧
      r.sun_e = (celestialToTerrestrial r.tt r.ut1 c.xp c.yp).transpose.apply (r.earth.neg.scale AUM) ∧
      r.sza = c.zen.angle r.sun_e ∧ r.p = c.p := by
  unfold SunAngleCalculator.compute at hr
  obtain ⟨e, he⟩ := C37_no_panic (TDB.fromTT (TT.fromTAI (TAI.fromUTC (c.jd0, c.jd1_date +.
    (c.fr +. δ /. lit 86400)) c.dat)) c.dtr)
  simp only [he, ok_bind] at hr
  obtain rfl := Except.ok.inj hr
  exact ⟨e, he, rfl, rfl, rfl, rfl⟩

theorem Cong.trans {e e' x y z : ℝ} (h : Cong e x y) (h' : Cong e' y z) : Cong (e + e') x z := by
  obtain ⟨k, hk⟩ := h
  obtain ⟨l, hl⟩ := h'
  refine ⟨k + l, ?_⟩
  have : x - (z - ((k + l : ℤ) : ℝ) * (2 * Real.pi)) = (x - (y - k * (2 * Real.pi))) + (y - (z - l * (2 * Real.pi))) := by
    push_cast; ring
  rw [this]
  exact (abs_add_le _ _).trans (add_le_add hk hl)

theorem Ang.cong {x : F64} {θ φ e e' E M : ℝ} (h : Ang x θ e M) (h' : Cong e' θ φ) (hE : e + e' ≤ E) : Ang x φ E M := by
  obtain ⟨r, h1, h2, h3⟩ := h
  obtain ⟨k, hk⟩ := h2.trans h'
  exact ⟨r, h1, ⟨k, hk.trans hE⟩, h3⟩

/-- Adding the zero `TDB - TT` of the calculator changes no value. -/
theorem tdb_zero {x y : F64} {a b : ℚ} (hx : Is x a) (hy : Is y b) :
    ∃ x' y', TDB.fromTT (x, y) (lit 0) = (x', y') ∧ Is x' a ∧ Is y' b := by
  have i0 : Is (lit 0 : F64) 0 := by have := Is.lit_int 0 (by norm_num); push_cast at this; exact this
  have iD : Is (lit 0 /. D2S : F64) 0 := by
    have := i0.div lit86400_is (by norm_num) (small_le_HUGE (by norm_num))
    rw [zero_div, RN_exact (by have := RepQ.dyadic 0 0 (by norm_num) (by norm_num); norm_num at this; exact this)] at this
    exact this
  have key : ∀ {z : F64} {q : ℚ}, Is z q → Is (z +. lit 0 /. D2S) q := fun {z q} hz => by
    have := hz.add_exact iD (by rw [add_zero]; exact hz.rep) (by rw [add_zero]; exact hz.lt_OVQ)
    rwa [add_zero] at this
  unfold TDB.fromTT
  simp only
  split
  · exact ⟨_, _, rfl, hx, key hy⟩
  · exact ⟨_, _, rfl, key hx, hy⟩

theorem pole_nb (v : ℚ) (h0 : 0 ≤ v) (h1 : v ≤ 1 / 2) : NB (lit v *. AS2R : F64) ((v : ℝ) * AS2R) (1 / 10 ^ 17) 1 := by
  have h0' : (0 : ℝ) ≤ v := by exact_mod_cast h0
  have h1' : (v : ℝ) ≤ 1 / 2 := by have := (Rat.cast_le (K := ℝ)).mpr h1; push_cast at this; exact this
  have n1 := NB.lit v (E := 6 / 10 ^ 17) (M := 1 / 2) ⟨by rw [abs_of_nonneg h0']; exact h1', by norm_num, by norm_num⟩
  have n2 : NB (AS2R : F64) (AS2R : ℝ) (1 / 10 ^ 21) 4.8482e-6 :=
    NB.lit' 4.848136811095359935899141e-6 rfl ⟨by unfold AS2R; rw [lit_real]; norm_num [abs_le], by norm_num, by norm_num⟩
  exact n1.mul n2 (by norm_num)

theorem toVec_mk (V : Fin 3 → ℝ) : (⟨V 0, V 1, V 2⟩ : Vec3 ℝ).toVec = V := by
  funext i; fin_cases i <;> rfl

/-- A float vector close to `w`: its exact value has nearly the length of `w`. -/
theorem VN.vis {v : Vec3 F64} {w : Vec3 ℝ} {e : ℝ} (h : VN v w.toVec e) :
    ∃ V : Vec3 ℝ, VIs v V ∧ len (V.toVec - w.toVec) ≤ e ∧ w.norm - e ≤ V.norm ∧ V.norm ≤ w.norm + e := by
  obtain ⟨V, h0, h1, h2, h3⟩ := h
  refine ⟨⟨V 0, V 1, V 2⟩, ⟨h0, h1, h2⟩, by rw [toVec_mk]; exact h3, ?_, ?_⟩
  · rw [norm_toVec, norm_toVec, toVec_mk]
    have : w.toVec = V + -(V - w.toVec) := by abel
    have h4 : len w.toVec ≤ len V + len (-(V - w.toVec)) := by
      conv_lhs => rw [this]
      exact len_add _ _
    have h5 : len (-(V - w.toVec)) = len (V - w.toVec) := by
      rw [len_eq, len_eq, WithLp.toLp_neg, norm_neg]
    linarith
  · rw [norm_toVec, norm_toVec, toVec_mk]
    have : V = w.toVec + (V - w.toVec) := by abel
    have h4 : len V ≤ len w.toVec + len (V - w.toVec) := by
      conv_lhs => rw [this]
      exact len_add _ _
    linarith

/-- **C72.** For every profile, every set of finite parameters of `SunInput` and every mathematical library accurate to
`2^-50`: `new` and `compute` succeed in `f64` and in exact arithmetic on the same values, and the `f64` results are close
to the exact ones.  The position is within `0.3` micrometres, the heliocentric Earth within `3e-11` au and the
terrestrial Sun vector within 85 m per coordinate.  The cosine handed to `acos` is within `1.2e-9` of the cosine of the exact
zenith angle, and unless the Sun is within a thirtieth of a degree of the zenith or nadir, the zenith angle `θ` is within
`1.23e-9 / sin θ + 2^-50` radians (a quarter of a milliarcsecond in the middle of the range). -/
theorem C72_sun_angle_f64 [Libm F64] (hL : LibmAcc) (p : Profile) (q : SunAngleParameters F64) (δ : F64) (s l b h d : ℚ)
    (N : ℤ) (H : SunInput q δ s l b h d N) :
    ∃ (c : SunAngleCalculator F64) (C : SunAngleCalculator ℝ) (r : SunAngleResult F64) (R : SunAngleResult ℝ),
      SunAngleCalculator.new p q = .ok c ∧ SunAngleCalculator.new p (exactParams q s l b h) = .ok C ∧
      c.compute δ = .ok r ∧ C.compute (d : ℝ) = .ok R ∧
      VecNear r.p R.p (3 / 10 ^ 7) ∧ VecNear r.earth R.earth (3 / 10 ^ 11) ∧ VecNear r.sun_e R.sun_e 85 ∧
      Near (c.zen.normalize.dot r.sun_e.normalize) (Real.cos R.sza) (1.2 / 10 ^ 9) ∧
      (1 / 2000 ≤ Real.sin R.sza → Near r.sza R.sza (1.23 / 10 ^ 9 / Real.sin R.sza + 1 / 2 ^ 50)) := by
  obtain ⟨c, C, hc, hC, hdat, ct, cx, cy, hp, hz⟩ := H.news hL p
  obtain ⟨r, R, t, w, hr, hR, it1, it2, iw1, iw2, hcent, hcent', htt, hut⟩ := H.times p hc hC hdat
  have gd : GoodDate (exactParams q s l b h).date := H.date
  obtain ⟨-, -, -, -, -, -, C7, C8, C9, -, C11⟩ := new_fields gd hC
  obtain ⟨e, he, he1, hs, hsz, hrp⟩ := compute_geometry c δ hr
  obtain ⟨e', he', he1', hs', hsz', hrp'⟩ := compute_geometry C d hR
  obtain ⟨-, sd1, sd2⟩ := C53_sun_distance p _ gd C hC d R hR (hcent.trans (by norm_num))
  refine ⟨c, C, r, R, hc, hC, hr, hR, by rw [hrp, hrp']; exact hp, ?_⟩
  -- days from J2000.0
  have hcs := abs_le.mp hcent
  have hts := abs_le.mp htt
  norm_num at hcs hts
  have dn : ∀ {x y : F64}, Is x 2400000.5 → Is y t → NB ((x -. DJ00) +. y) (R.tt.1 + R.tt.2 - 2451545) (10 / 10 ^ 10) 36525 := by
    intro x y hx hy
    have g := days_near hx hy (by norm_num) (by
      rw [abs_le]; push_cast; norm_num; constructor <;> linarith)
    refine ⟨(g.near.shift (e' := 47 / 10 ^ 12) ?_).mono (by norm_num), ?_⟩
    · push_cast
      have e0 : (2400000.5 : ℝ) + t - 2451545 - (R.tt.1 + R.tt.2 - 2451545) = 2400000.5 + t - (R.tt.1 + R.tt.2) := by ring
      rw [e0]; exact htt
    · rw [abs_le]; constructor <;> linarith
  -- the ephemeris
  obtain ⟨x', y', hxy, ix, iy⟩ := tdb_zero it1 it2
  have e1 : TDB.fromTT r.tt c.dtr = (x', y') := by rw [ct]; exact hxy
  have e2 : R.tt.1 + R.tt.2 - 2451545 = (TDB.fromTT R.tt C.dtr).1 + (TDB.fromTT R.tt C.dtr).2 - 2451545 := by
    rw [C25_tt_to_tdb_exact, C7]; simp
  have dn' := dn ix iy
  rw [e2] at dn'
  obtain ⟨ee, re, g1, g2, g3, -, -, -⟩ := epv_acc hL dn'
  rw [e1, g1] at he
  obtain rfl := Except.ok.inj he
  have g2' : EarthPosVel.fromTDB (TDB.fromTT R.tt C.dtr) = .ok re := g2
  rw [he'] at g2'
  obtain rfl := Except.ok.inj g2'
  rw [← he1, ← he1'] at g3
  refine ⟨⟨g3.1.near, g3.2.1.near, g3.2.2.near⟩, ?_⟩
  -- the Sun in metres
  have hA : NB (AUM : F64) (149597870700) 0 149597870700 :=
    NB.of_is' (a := 149597870700) (by
      have := Is.lit_int 149597870700 (by norm_num); push_cast at this; exact this) (by norm_num) (by norm_num)
  have hAr : (AUM : ℝ) = 149597870700 := by unfold AUM; norm_num
  have sunv : VN (r.earth.neg.scale AUM) (R.earth.neg.scale AUM).toVec 7.857 := by
    refine VN.of_nears (e := 4.489) ?_ ?_ ?_ (by norm_num)
    · have := (hA.mul g3.1.neg (E := 4.489) (M := 3 * 10 ^ 11) (by norm_num)).near
      rw [← hAr] at this; exact this
    · have := (hA.mul g3.2.1.neg (E := 4.489) (M := 3 * 10 ^ 11) (by norm_num)).near
      rw [← hAr] at this; exact this
    · have := (hA.mul g3.2.2.neg (E := 4.489) (M := 3 * 10 ^ 11) (by norm_num)).near
      rw [← hAr] at this; exact this
  have hm : MN (celestialToTerrestrial r.tt r.ut1 c.xp c.yp) (celestialToTerrestrial R.tt R.ut1 C.xp C.yp) (5 / 10 ^ 10) := by
    have cen := centuries_of_days (dn it1 it2)
    rw [← centuries_real] at cen
    have era := (era_ang iw1 iw2 (by norm_num) (by
      have h1 := abs_le.mp hut
      have h2 := abs_le.mp hcent'
      norm_num at h1 h2
      have k1 : ((-4000000 : ℚ) : ℝ) ≤ w := by push_cast; linarith
      have k2 : (w : ℝ) ≤ ((4000000 : ℚ) : ℝ) := by push_cast; linarith
      exact abs_le.mpr ⟨Rat.cast_le.mp k1, Rat.cast_le.mp k2⟩)).cong (era_sens (Δ := 46 / 10 ^ 12) (by push_cast; exact hut) (by norm_num)) (E := 492 / 10 ^ 12) (by norm_num)
    rw [C8, C9, cx, cy]
    have := c2t_ang hL (a := R.tt.1) (b := R.tt.2) (tt := r.tt) (u := r.ut1) (c := R.ut1) (hcent.trans (by norm_num)) cen era (pole_nb 0.0349282 (by norm_num) (by norm_num))
      (pole_nb 0.4833163 (by norm_num) (by norm_num)) (by norm_num) (E := 5 / 10 ^ 10) (by norm_num)
    push_cast at this
    exact this
  have hrot := c2t_rotation R.tt R.ut1 C.xp C.yp
  have nsun : (R.earth.neg.scale AUM).norm = R.sun_e.norm := by rw [hs', rotation_norm hrot]
  have sunN : VN r.sun_e R.sun_e.toVec 85 := by
    have := VN.apply hm.transpose (hrot.transpose) (by norm_num) sunv (L := 1.525 * 10 ^ 11) (by
      rw [← norm_toVec, nsun]; norm_num at sd2 ⊢; linarith) (by norm_num) (by norm_num) (E := 85) (by norm_num)
    rw [← hs, ← Mat3.toVec_apply, ← hs'] at this
    exact this
  refine ⟨sunN.near, ?_⟩
  -- the angle
  obtain ⟨Z, hZ, dZ, Z1, Z2⟩ := hz.vis
  obtain ⟨S, hS, dS, S1, S2⟩ := sunN.vis
  have vu := vertical_unit l b
  have hz' : C.zen = vertical l b := C11
  rw [vu] at Z1 Z2
  norm_num at Z1 Z2 sd1 sd2
  have p1 : 1 / 1000 ≤ Z.norm := by linarith
  have p2 : Z.norm ≤ 10 ^ 13 := by norm_num; linarith
  have p3 : 1 / 1000 ≤ S.norm := by linarith
  have p4 : S.norm ≤ 10 ^ 13 := by norm_num; linarith
  have cz := cosine_acc hZ hS p1 p2 p3 p4
  have cc := vec_cosine_close (Z := Z) (z := vertical l b) (S := S) (s := R.sun_e) (by linarith) (by rw [vu]; norm_num)
    (by linarith) (by linarith)
  have hcos : Real.cos R.sza = ((vertical l b).x * R.sun_e.x + (vertical l b).y * R.sun_e.y + (vertical l b).z * R.sun_e.z) /
      ((vertical l b).norm * R.sun_e.norm) := by
    rw [hsz', hz', angle_real]
    have k := dot_abs_le (vertical l b) R.sun_e
    have pos : 0 < (vertical l b).norm * R.sun_e.norm := by rw [vu]; linarith
    have k' := abs_le.mp k
    refine Real.cos_arccos ?_ ?_
    · rw [le_div_iff₀ pos]; linarith
    · rw [div_le_one pos]; linarith
  rw [← hcos] at cc
  have hcc : Near (c.zen.normalize.dot r.sun_e.normalize) (Real.cos R.sza) (1.2 / 10 ^ 9) := by
    refine (cz.shift (e' := 1.17 / 10 ^ 9) (cc.trans ?_)).mono (by norm_num)
    rw [vu, div_one]
    have : len (S.toVec - R.sun_e.toVec) / R.sun_e.norm ≤ 85 / 146905108000 := by
      apply div_le_div₀ (by norm_num) dS (by norm_num) (by linarith)
    norm_num at this dZ ⊢
    linarith
  refine ⟨hcc, fun hsin => ?_⟩
  obtain ⟨x, ix, ex⟩ := hcc
  have t0 : 0 ≤ R.sza := by rw [hsz', angle_real]; exact Real.arccos_nonneg _
  have t1 : R.sza ≤ Real.pi := by rw [hsz', angle_real]; exact Real.arccos_le_pi _
  have sp : 0 < Real.sin R.sza := by linarith [show (0 : ℝ) < 1 / 2000 by norm_num]
  obtain ⟨u1, u2⟩ := arccos_close t0 t1 sp ex (by
    have : (1 / 2000 : ℝ) ^ 2 ≤ (Real.sin R.sza) ^ 2 := pow_le_pow_left₀ (by norm_num) hsin 2
    norm_num at this ⊢
    linarith)
  have ac := hL.acos _ x ix (by exact_mod_cast u1)
  have ac' : Near r.sza (Real.arccos x) (1 / 2 ^ 50) := by rw [hsz]; exact ac
  refine (ac'.shift u2).mono ?_
  have : 1.02 * (1.2 / 10 ^ 9) / Real.sin R.sza ≤ 1.23 / 10 ^ 9 / Real.sin R.sza := by
    gcongr
    norm_num
  linarith

/-- **C72.** The zenith angle everywhere, under the same hypotheses: it is within `4.91e-5` radians, 0.0029 degrees, of the exact one; unless
the exact one is within that of the zenith or the nadir, and the cosine handed to `acos` exceeds one in magnitude. -/
theorem C72_sun_angle_everywhere [Libm F64] (hL : LibmAcc) (p : Profile) (q : SunAngleParameters F64) (δ : F64) (s l b h d : ℚ)
    (N : ℤ) (H : SunInput q δ s l b h d N) :
    ∃ (c : SunAngleCalculator F64) (C : SunAngleCalculator ℝ) (r : SunAngleResult F64) (R : SunAngleResult ℝ),
      SunAngleCalculator.new p q = .ok c ∧ SunAngleCalculator.new p (exactParams q s l b h) = .ok C ∧
      c.compute δ = .ok r ∧ C.compute (d : ℝ) = .ok R ∧
      (Near r.sza R.sza (4.91 / 10 ^ 5) ∨
        (∃ x, Is (c.zen.normalize.dot r.sun_e.normalize) x ∧ 1 < |x|) ∧
        (R.sza ≤ 4.9 / 10 ^ 5 ∨ Real.pi - 4.9 / 10 ^ 5 ≤ R.sza)) := by
  obtain ⟨c, C, r, R, hc, hC, hr, hR, -, -, -, ⟨x, ix, ex⟩, -⟩ := C72_sun_angle_f64 hL p q δ s l b h d N H
  refine ⟨c, C, r, R, hc, hC, hr, hR, ?_⟩
  obtain ⟨-, -, -, -, hsz, -⟩ := compute_geometry c δ hr
  obtain ⟨-, -, -, -, hsz', -⟩ := compute_geometry C d hR
  have t0 : 0 ≤ R.sza := by rw [hsz', angle_real]; exact Real.arccos_nonneg _
  have t1 : R.sza ≤ Real.pi := by rw [hsz', angle_real]; exact Real.arccos_le_pi _
  have c1 := Real.cos_le_one R.sza
  have c2 := Real.neg_one_le_cos R.sza
  by_cases hx : |x| ≤ 1
  · left
    have hx' : |(x : ℝ)| ≤ 1 := by exact_mod_cast hx
    have ac := hL.acos _ x ix hx
    have ac' : Near r.sza (Real.arccos x) (1 / 2 ^ 50) := by rw [hsz]; exact ac
    have := angle_close t0 t1 (Real.arccos_nonneg x) (Real.arccos_le_pi x) (by
      rw [Real.cos_arccos (abs_le.mp hx').1 (abs_le.mp hx').2]; exact ex)
    exact (ac'.shift this).mono (by norm_num)
  · right
    rw [not_le] at hx
    refine ⟨⟨x, ix, hx⟩, ?_⟩
    have e := abs_le.mp ex
    rcases lt_abs.mp hx with h1 | h1
    · left
      have h1' : (1 : ℝ) < x := by exact_mod_cast h1
      have := angle_close (θ := R.sza) (θ' := 0) t0 t1 le_rfl Real.pi_pos.le (by
        rw [Real.cos_zero, abs_le]; constructor <;> linarith [e.1, e.2])
      rw [zero_sub, abs_neg, abs_of_nonneg t0] at this
      exact this
    · right
      have h1' : (1 : ℝ) < -x := by exact_mod_cast h1
      have := angle_close (θ := R.sza) (θ' := Real.pi) t0 t1 Real.pi_pos.le le_rfl (by
        rw [Real.cos_pi, abs_le]; constructor <;> linarith [e.1, e.2])
      rw [abs_of_nonneg (by linarith)] at this
      linarith

/-- The hypotheses hold for the default parameters of the program, an offset of an hour, and a library that exists. -/
example : ∃ L : Libm F64, @LibmAcc L ∧
    SunInput (SunAngleParameters.default : SunAngleParameters F64) (lit 3600) 0 (-120) 0 0 3600 54195 := by
  have i0 : Is (lit 0 : F64) 0 := by have := Is.lit_int 0 (by norm_num); push_cast at this; exact this
  have i1 : Is (lit (-120) : F64) (-120) := by have := Is.lit_int (-120) (by norm_num); push_cast at this; exact this
  have i2 : Is (lit 3600 : F64) 3600 := by have := Is.lit_int 3600 (by norm_num); push_cast at this; exact this
  refine ⟨goodLibm, exists_libmAcc, ⟨⟨by decide, by decide, by decide⟩, by decide, by decide, i0, by
    norm_num [SunAngleParameters.default], by norm_num [SunAngleParameters.default], i1, i0, i0, by norm_num, by norm_num, by norm_num, i2, by norm_num,
    daysFrom_epoch (by decide), by norm_num [SunAngleParameters.default]⟩⟩

end Verif
