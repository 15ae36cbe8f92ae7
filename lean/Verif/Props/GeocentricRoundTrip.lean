import Verif.Props.GeocentricAccuracy

/-!
# C79: the point a binary64 `geocentric_to_geodetic` result stands for
-/

namespace Verif
open Arith F64

/-! ## Distances -/

/-- The triangle inequality. -/
theorem tri3 (a b c d e f : ℝ) :
    √((a + b) ^ 2 + (c + d) ^ 2 + (e + f) ^ 2) ≤ √(a ^ 2 + c ^ 2 + e ^ 2) + √(b ^ 2 + d ^ 2 + f ^ 2) := by
  have hX : 0 ≤ a ^ 2 + c ^ 2 + e ^ 2 := by positivity
  have hY : 0 ≤ b ^ 2 + d ^ 2 + f ^ 2 := by positivity
  have h1 := Real.sq_sqrt hX
  have h2 := Real.sq_sqrt hY
  have h3 : a * b + c * d + e * f ≤ √(a ^ 2 + c ^ 2 + e ^ 2) * √(b ^ 2 + d ^ 2 + f ^ 2) := by
    rw [← Real.sqrt_mul hX]
    refine Real.le_sqrt_of_sq_le ?_
    nlinarith [sq_nonneg (a * d - b * c), sq_nonneg (a * f - b * e), sq_nonneg (c * f - d * e)]
  apply Real.sqrt_le_iff.mpr
  exact ⟨by positivity, by nlinarith⟩

/-- A vector is no longer than the sum of its components. -/
theorem norm3_le (a b c : ℝ) : √(a ^ 2 + b ^ 2 + c ^ 2) ≤ |a| + |b| + |c| := by
  apply Real.sqrt_le_iff.mpr
  refine ⟨by positivity, ?_⟩
  have h1 := abs_nonneg a
  have h2 := abs_nonneg b
  have h3 := abs_nonneg c
  nlinarith [sq_abs a, sq_abs b, sq_abs c, mul_nonneg h1 h2, mul_nonneg h1 h3, mul_nonneg h2 h3]

/-! ## How the point moves with latitude and height -/

/-- `cos φ / D` and `sin φ / D` with `D² = cos² φ + ε² sin² φ`. -/
theorem normal_lip (ε : ℝ) (ε1 : 0.996 ≤ ε) (ε2 : ε ≤ 1) (φ ψ : ℝ) :
    |Real.cos ψ / √(Real.cos ψ ^ 2 + ε ^ 2 * Real.sin ψ ^ 2) - Real.cos φ / √(Real.cos φ ^ 2 + ε ^ 2 * Real.sin φ ^ 2)|
      ≤ 1.01 * |ψ - φ| ∧
    |Real.sin ψ / √(Real.cos ψ ^ 2 + ε ^ 2 * Real.sin ψ ^ 2) - Real.sin φ / √(Real.cos φ ^ 2 + ε ^ 2 * Real.sin φ ^ 2)|
      ≤ 1.01 * |ψ - φ| := by
  have key : ∀ θ : ℝ, 0.996 ≤ √(Real.cos θ ^ 2 + ε ^ 2 * Real.sin θ ^ 2) := fun θ => by
    refine Real.le_sqrt_of_sq_le ?_
    have := Real.sin_sq_add_cos_sq θ
    have e2 : (0.996 : ℝ) ^ 2 ≤ ε ^ 2 := pow_le_pow_left₀ (by norm_num) ε1 2
    nlinarith [sq_nonneg (Real.sin θ), sq_nonneg (Real.cos θ)]
  have dd : |√(Real.cos ψ ^ 2 + ε ^ 2 * Real.sin ψ ^ 2) - √(Real.cos φ ^ 2 + ε ^ 2 * Real.sin φ ^ 2)| ≤ 0.0041 * |ψ - φ| := by
    have a1 := key ψ
    have a2 := key φ
    have s1 := Real.sq_sqrt (show 0 ≤ Real.cos ψ ^ 2 + ε ^ 2 * Real.sin ψ ^ 2 by positivity)
    have s2 := Real.sq_sqrt (show 0 ≤ Real.cos φ ^ 2 + ε ^ 2 * Real.sin φ ^ 2 by positivity)
    set A := √(Real.cos ψ ^ 2 + ε ^ 2 * Real.sin ψ ^ 2)
    set B := √(Real.cos φ ^ 2 + ε ^ 2 * Real.sin φ ^ 2)
    have e : (A - B) * (A + B) = -((1 - ε ^ 2) * (Real.sin (ψ - φ) * Real.sin (ψ + φ))) := by
      have t1 := Real.sin_sq_add_cos_sq ψ
      have t2 := Real.sin_sq_add_cos_sq φ
      rw [Real.sin_sub, Real.sin_add]
      linear_combination s1 - s2 - (ε ^ 2 - (1 - ε ^ 2) * (Real.sin φ ^ 2 - 1)) * (t1 - t1) + (t1 - t2)
        + (1 - ε ^ 2) * (Real.sin ψ ^ 2 * t2 - Real.sin φ ^ 2 * t1)
    have h1 : |Real.sin (ψ - φ) * Real.sin (ψ + φ)| ≤ |ψ - φ| := by
      rw [abs_mul]
      calc |Real.sin (ψ - φ)| * |Real.sin (ψ + φ)| ≤ |ψ - φ| * 1 :=
            mul_le_mul Real.abs_sin_le_abs (Real.abs_sin_le_one _) (abs_nonneg _) (abs_nonneg _)
        _ = _ := mul_one _
    have q0 : 0 ≤ 1 - ε ^ 2 := by nlinarith
    have q1 : 1 - ε ^ 2 ≤ 0.008 := by nlinarith
    have h2 : |A - B| * (A + B) ≤ 0.008 * |ψ - φ| := by
      have : |A - B| * (A + B) = |(A - B) * (A + B)| := by rw [abs_mul, abs_of_pos (show 0 < A + B by linarith)]
      rw [this, e, abs_neg, abs_mul, abs_of_nonneg q0]
      exact mul_le_mul q1 h1 (abs_nonneg _) (by norm_num)
    have h3 : |A - B| * 1.992 ≤ |A - B| * (A + B) := mul_le_mul_of_nonneg_left (by linarith) (abs_nonneg _)
    have := abs_nonneg (ψ - φ)
    norm_num at h2 h3 ⊢
    linarith
  have gen : ∀ c c' A B : ℝ, |c| ≤ 1 → |c' - c| ≤ |ψ - φ| → 0.996 ≤ A → 0.996 ≤ B → |A - B| ≤ 0.0041 * |ψ - φ| →
      |c' / A - c / B| ≤ 1.01 * |ψ - φ| := by
    intro c c' A B c1 cc a1 b1 ab
    have A0 : 0 < A := by linarith
    have B0 : 0 < B := by linarith
    have e : c' / A - c / B = ((c' - c) - c * (A - B) / B) / A := by field_simp; ring
    have d0 := abs_nonneg (ψ - φ)
    have h1 : |c * (A - B) / B| ≤ 0.0042 * |ψ - φ| := by
      rw [abs_div, abs_mul, abs_of_pos B0, div_le_iff₀ B0]
      have : |c| * |A - B| ≤ 1 * (0.0041 * |ψ - φ|) := mul_le_mul c1 ab (abs_nonneg _) (by norm_num)
      have := mul_le_mul_of_nonneg_left b1 (show 0 ≤ 0.0042 * |ψ - φ| by positivity)
      linarith
    rw [e, abs_div, abs_of_pos A0, div_le_iff₀ A0]
    have h2 := (abs_sub (c' - c) (c * (A - B) / B)).trans (add_le_add cc h1)
    have h3 := mul_le_mul_of_nonneg_left a1 (show 0 ≤ 1.01 * |ψ - φ| by positivity)
    linarith
  exact ⟨gen _ _ _ _ (Real.abs_cos_le_one _) (Real.abs_cos_sub_cos_le _ _) (key ψ) (key φ) dd,
    gen _ _ _ _ (Real.abs_sin_le_one _) (Real.abs_sin_sub_sin_le _ _) (key ψ) (key φ) dd⟩

/-- Change of the two meridian coordinates. -/
theorem merid_lip (ε a φ ψ h k d η H : ℝ) (ε1 : 0.996 ≤ ε) (ε2 : ε ≤ 1) (ha : 0 ≤ a) (hφ : |ψ - φ| ≤ d) (hh : |k - h| ≤ η)
    (hH : |h| ≤ H) :
    |(a / √(Real.cos ψ ^ 2 + ε ^ 2 * Real.sin ψ ^ 2) + k) * Real.cos ψ -
      (a / √(Real.cos φ ^ 2 + ε ^ 2 * Real.sin φ ^ 2) + h) * Real.cos φ| ≤ (1.01 * a + H) * d + η ∧
    |(ε ^ 2 * (a / √(Real.cos ψ ^ 2 + ε ^ 2 * Real.sin ψ ^ 2)) + k) * Real.sin ψ -
      (ε ^ 2 * (a / √(Real.cos φ ^ 2 + ε ^ 2 * Real.sin φ ^ 2)) + h) * Real.sin φ| ≤ (1.01 * a + H) * d + η := by
  obtain ⟨h1, h2⟩ := normal_lip ε ε1 ε2 φ ψ
  have gen : ∀ (κ A B c c' : ℝ), 0 ≤ κ → κ ≤ 1 → |c'| ≤ 1 → |c' - c| ≤ |ψ - φ| → |c' / A - c / B| ≤ 1.01 * |ψ - φ| →
      |(κ * (a / A) + k) * c' - (κ * (a / B) + h) * c| ≤ (1.01 * a + H) * d + η := by
    intro κ A B c c' k0 k1 c1 cc hc
    have e : (κ * (a / A) + k) * c' - (κ * (a / B) + h) * c = κ * a * (c' / A - c / B) + ((k - h) * c' + h * (c' - c)) := by ring
    rw [e]
    have H0 := (abs_nonneg _).trans hH
    have d0 := (abs_nonneg _).trans hφ
    have t1 : |κ * a * (c' / A - c / B)| ≤ 1 * a * (1.01 * d) := by
      rw [abs_mul, abs_of_nonneg (mul_nonneg k0 ha)]
      exact mul_le_mul (mul_le_mul_of_nonneg_right k1 ha) (hc.trans (by gcongr)) (abs_nonneg _) (by positivity)
    have t2 : |(k - h) * c'| ≤ η * 1 := by
      rw [abs_mul]; exact mul_le_mul hh c1 (abs_nonneg _) ((abs_nonneg _).trans hh)
    have t3 : |h * (c' - c)| ≤ H * d := by
      rw [abs_mul]; exact mul_le_mul hH (cc.trans hφ) (abs_nonneg _) H0
    refine (abs_add_le _ _).trans ((add_le_add t1 ((abs_add_le _ _).trans (add_le_add t2 t3))).trans (le_of_eq ?_))
    ring
  refine ⟨?_, ?_⟩
  · have := gen 1 _ _ _ _ zero_le_one le_rfl (Real.abs_cos_le_one ψ) (Real.abs_cos_sub_cos_le _ _) h1
    rwa [one_mul, one_mul] at this
  · exact gen (ε ^ 2) _ _ _ _ (by positivity) (pow_le_one₀ (by linarith) ε2) (Real.abs_sin_le_one ψ) (Real.abs_sin_sub_sin_le _ _) h2

theorem norm2_le (a b m : ℝ) (ha : |a| ≤ m) (hb : |b| ≤ m) : √(a ^ 2 + b ^ 2 + 0 ^ 2) ≤ 1.415 * m := by
  have m0 := (abs_nonneg _).trans ha
  apply Real.sqrt_le_iff.mpr
  refine ⟨by positivity, ?_⟩
  have h1 : a ^ 2 ≤ m ^ 2 := sq_le_sq' (abs_le.mp ha).1 (abs_le.mp ha).2
  have h2 : b ^ 2 ≤ m ^ 2 := sq_le_sq' (abs_le.mp hb).1 (abs_le.mp hb).2
  have h3 : (1.415 * m) ^ 2 = 2.002225 * m ^ 2 := by ring
  rw [h3]
  nlinarith [sq_nonneg m]

/-! ## The square of the distance from the axis -/

theorem p2_sb {x y : F64} {X Y : ℚ} (hx : Is x X) (hy : Is y Y) (p : ℝ) (hp : p ^ 2 = (X : ℝ) ^ 2 + (Y : ℝ) ^ 2)
    (p1 : 1 / 10 ^ 10 ≤ p) (p2 : p ≤ 2 ^ 40) : SB (sq x +. sq y) (p ^ 2) (47 / 10 ^ 17) 1 (p * p) := by
  have p0 : 0 < p := lt_of_lt_of_le (by positivity) p1
  have o1 : Ok p := ⟨le_trans (by norm_num) p1, p2.trans (by norm_num)⟩
  have o2 : Ok (p * p) := by
    constructor
    · refine le_trans ?_ (mul_le_mul p1 p1 (by positivity) p0.le)
      norm_num
    · refine (mul_le_mul p2 p2 p0.le (by positivity)).trans ?_
      norm_num
  have X1 : |(X : ℝ)| ≤ 1 * p := by
    rw [one_mul]
    exact abs_le_of_sq_le_sq (by rw [hp]; nlinarith [sq_nonneg (Y : ℝ)]) p0.le
  have Y1 : |(Y : ℝ)| ≤ 1 * p := by
    rw [one_mul]
    exact abs_le_of_sq_le_sq (by rw [hp]; nlinarith [sq_nonneg (X : ℝ)]) p0.le
  have sx := SB.of_is hx o1 X1
  have sy := SB.of_is hy o1 Y1
  exact ((sx.mul sx o2 (E := 112 / 10 ^ 18) (M := 1) (by norm_num)).add (sy.mul sy o2 (E := 112 / 10 ^ 18) (M := 1) (by norm_num))
    (E := 47 / 10 ^ 17) (M := 2) (by norm_num)).congr (b := p ^ 2) (by rw [hp]; ring) |>.remag (by
      rw [abs_of_nonneg (by positivity)]; nlinarith)

/-- The test against the pole cut-off. -/
theorem cut_iff {w : EllipsoidConverter F64} {ε : ℝ} (C : WgsConst w ε) {x y : F64} {X Y : ℚ} (hx : Is x X) (hy : Is y Y)
    (hb : (X : ℝ) ^ 2 + (Y : ℝ) ^ 2 ≤ 2 ^ 80) :
    ∃ b : Bool, (w.aeps2 <. sq x +. sq y) = b ∧ (b = true → 4.06e-19 ≤ (X : ℝ) ^ 2 + (Y : ℝ) ^ 2) ∧
      (b = false → (X : ℝ) ^ 2 + (Y : ℝ) ^ 2 ≤ 4.08e-19) := by
  obtain ⟨t, ht, t1, t2⟩ := C.aeps2
  have t1' := (Rat.cast_le (K := ℝ)).mpr t1
  have t2' := (Rat.cast_le (K := ℝ)).mpr t2
  push_cast at t1' t2'
  refine ⟨_, rfl, fun h => ?_, fun h => ?_⟩
  · by_contra hc
    push Not at hc
    have X1 : |(X : ℝ)| ≤ 7 / 10 ^ 10 := abs_le_of_sq_le_sq (by norm_num at hc ⊢; nlinarith [sq_nonneg (Y : ℝ)]) (by norm_num)
    have Y1 : |(Y : ℝ)| ≤ 7 / 10 ^ 10 := abs_le_of_sq_le_sq (by norm_num at hc ⊢; nlinarith [sq_nonneg (X : ℝ)]) (by norm_num)
    have nx := NB.of_is hx X1
    have ny := NB.of_is hy Y1
    have n := (nx.mul nx (E := 1 / 10 ^ 30) (M := 49 / 10 ^ 20) (by norm_num)).add (ny.mul ny (E := 1 / 10 ^ 30) (M := 49 / 10 ^ 20) (by norm_num))
      (E := 1 / 10 ^ 28) (M := 98 / 10 ^ 20) (by norm_num)
    obtain ⟨r, hr, er, -⟩ := n.exists_is
    have h' : (w.aeps2 <. x *. x +. y *. y) = true := h
    rw [ht.lt hr, decide_eq_true_eq] at h'
    have h2 := (Rat.cast_lt (K := ℝ)).mpr h'
    have := (abs_le.mp er).2
    norm_num at hc t1' this
    linarith
  · by_contra hc
    push Not at hc
    have s1 := Real.sq_sqrt (show 0 ≤ (X : ℝ) ^ 2 + (Y : ℝ) ^ 2 by positivity)
    have sb := p2_sb hx hy (√((X : ℝ) ^ 2 + (Y : ℝ) ^ 2)) s1 (Real.le_sqrt_of_sq_le (le_trans (by norm_num) hc.le))
      ((Real.sqrt_le_sqrt hb).trans (by
        rw [show (2 : ℝ) ^ 80 = (2 ^ 40) ^ 2 by norm_num, Real.sqrt_sq (by positivity)]))
    obtain ⟨r, hr, er⟩ := sb.near
    rw [← pow_two, s1] at er
    rw [ht.lt hr, decide_eq_false_iff_not, not_lt] at h
    have h2 := (Rat.cast_le (K := ℝ)).mpr h
    have := (abs_le.mp er).1
    norm_num at hc t2' this
    linarith

/-! ## The meridian coordinates -/

/-- The residual of the exact computation on WGS84. -/
theorem wgs_residual (f L u s : ℝ) (f0 : 0 ≤ f) (f1 : f ≤ 1 / 298) (hL : 0.99 ≤ L) (hu : 0 < u) (hs : 0 ≤ s)
    (us : u ^ 2 + s ^ 2 = 1) (φ h : ℝ)
    (hφ : (φ, h) = (convR 6378137 f).latHeight ((6378137 * L * u) ^ 2) (6378137 * (1 - f) * L * s)) :
    ∃ T : ℝ,
      (6378137 / √(Real.cos φ ^ 2 + (1 - f) ^ 2 * Real.sin φ ^ 2) + h) * Real.cos φ = 6378137 * L * u - T * Real.sin φ ∧
      ((1 - f) ^ 2 * (6378137 / √(Real.cos φ ^ 2 + (1 - f) ^ 2 * Real.sin φ ^ 2)) + h) * Real.sin φ =
        6378137 * (1 - f) * L * s + T * Real.cos φ ∧ |T| ≤ 0.005 * |1 - 1 / L| ^ 3 := by
  obtain ⟨T, M, N, r1, r2, hM, Mp, MN, hT⟩ := scaled_residual 6378137 f L u s (by norm_num) f0 (by linarith) (by nlinarith) hu us φ h hφ
  refine ⟨T, r1, r2, ?_⟩
  have Lp : 0 < L := by linarith
  have q0 : 0 ≤ 1 - (1 - f) ^ 2 := by nlinarith
  have q1 : 1 - (1 - f) ^ 2 ≤ 2 / 298 := by nlinarith [sq_nonneg f]
  have sb := step_bound (1 - (1 - f) ^ 2) L u s M q0 (q1.trans (by norm_num)) hL hu.le hs us hM
  have he : 0.99 ≤ 1 - f := by norm_num at f1 ⊢; linarith
  have Np : 0 < N := lt_of_lt_of_le (by positivity) MN
  have l0 : 0 ≤ |1 - 1 / L| ^ 3 := by positivity
  have q4 : (1 - (1 - f) ^ 2) ^ 4 ≤ (2 / 298) ^ 4 := pow_le_pow_left₀ q0 q1 4
  have MN' : 0.99 * M ≤ N := (mul_le_mul_of_nonneg_right he Mp.le).trans MN
  rw [hT, abs_div, abs_mul, abs_of_pos (show (0 : ℝ) < 6378137 by norm_num), abs_of_pos Np, div_le_iff₀ Np]
  calc _ ≤ 6378137 * (0.35 * (1 - (1 - f) ^ 2) ^ 4 * |1 - 1 / L| ^ 3 * M) := by gcongr
    _ ≤ 6378137 * (0.35 * (2 / 298) ^ 4 * |1 - 1 / L| ^ 3 * (N / 0.99)) := by
        gcongr
        rw [le_div_iff₀ (by norm_num)]; linarith
    _ = (6378137 * 0.35 * (2 / 298) ^ 4 / 0.99) * (|1 - 1 / L| ^ 3 * N) := by ring
    _ ≤ 0.005 * (|1 - 1 / L| ^ 3 * N) := by gcongr; norm_num
    _ = _ := by ring

/-- The latitude (of `|z|`) and the height of the code. -/
def latHeightOf {α : Type} [Arith α] [Libm α] (c : EllipsoidConverter α) (p2 absz : α) : α × α :=
  if c.aeps2 <. p2 then c.latHeight p2 absz else (Arith.pi /. lit 2, absz -. c.b)

section
variable [Libm F64] (hat : ∀ (x : F64) (a : ℚ), Is x a → Near (Libm.atan x) (Real.arctan a) (1 / 2 ^ 50))
include hat

theorem merid_f64 {w : EllipsoidConverter F64} {f : ℝ} (C : WgsConst w (1 - f)) (f0 : 0 ≤ f) (f1 : f ≤ 1 / 298)
    (ε1 : 0.996645 ≤ 1 - f) (ε2 : 1 - f ≤ 0.9967) (vx vy vz : F64) (x y z : ℚ) (hx : Is vx x) (hy : Is vy y) (hz : Is vz z) (L : ℝ)
    (hL : L ^ 2 = ((x : ℝ) ^ 2 + (y : ℝ) ^ 2) / 6378137 ^ 2 + (z : ℝ) ^ 2 / (6378137 * (1 - f)) ^ 2) (L1 : 0.99 ≤ L) (L2 : L ≤ 10 ^ 4) :
    ∃ φ h : ℚ, Is (latHeightOf w (sq vx +. sq vy) (Arith.abs vz)).1 φ ∧ Is (latHeightOf w (sq vx +. sq vy) (Arith.abs vz)).2 h ∧
      |(φ : ℝ)| ≤ Real.pi / 2 + 3 / 10 ^ 14 ∧ -0.04 * 6378137 ≤ (h : ℝ) ∧
      √(((6378137 / √(Real.cos φ ^ 2 + (1 - f) ^ 2 * Real.sin φ ^ 2) + h) * Real.cos φ - √((x : ℝ) ^ 2 + (y : ℝ) ^ 2)) ^ 2 +
        (((1 - f) ^ 2 * (6378137 / √(Real.cos φ ^ 2 + (1 - f) ^ 2 * Real.sin φ ^ 2)) + h) * Real.sin φ - |(z : ℝ)|) ^ 2 + 0 ^ 2) ≤
        0.005 * |1 - 1 / L| ^ 3 + 1.05e-6 * L := by
  have Lp : 0 < L := by linarith
  have ep : 0 < 1 - f := by linarith
  have pn : 0 ≤ (x : ℝ) ^ 2 + (y : ℝ) ^ 2 := by positivity
  have zn : 0 ≤ (z : ℝ) ^ 2 / (6378137 * (1 - f)) ^ 2 := by positivity
  have pL : (x : ℝ) ^ 2 + (y : ℝ) ^ 2 ≤ (6378137 * L) ^ 2 := by
    have : ((x : ℝ) ^ 2 + (y : ℝ) ^ 2) / 6378137 ^ 2 ≤ L ^ 2 := by linarith
    rw [div_le_iff₀ (by norm_num)] at this
    linarith
  have l0 : 0 ≤ |1 - 1 / L| ^ 3 := by positivity
  have big : (6378137 * L) ^ 2 ≤ 2 ^ 80 := (pow_le_pow_left₀ (by positivity) (mul_le_mul_of_nonneg_left L2 (by norm_num)) 2).trans (by norm_num)
  have iz : Is (Arith.abs vz) |z| := hz.abs
  obtain ⟨b, hb, hb1, hb2⟩ := cut_iff C hx hy (pL.trans big)
  unfold latHeightOf
  rw [hb]
  have sL : √(((x : ℝ) ^ 2 + (y : ℝ) ^ 2) / 6378137 ^ 2 + (z : ℝ) ^ 2 / (6378137 * (1 - f)) ^ 2) = L := by
    rw [← hL, Real.sqrt_sq Lp.le]
  cases b with
  | true =>
    have p0 := hb1 rfl
    have pp : 0 < (x : ℝ) ^ 2 + (y : ℝ) ^ 2 := lt_of_lt_of_le (by norm_num) p0
    obtain ⟨u, s, u0, s0, us, -, ex, ez⟩ := scaled_coords 6378137 f (by norm_num) (by linarith) (x : ℝ) y z pp
    rw [sL] at ex ez
    have u1 : u ≤ 1 := by nlinarith
    have pl : (63 / 10 ^ 11 : ℝ) ≤ √((x : ℝ) ^ 2 + (y : ℝ) ^ 2) := Real.le_sqrt_of_sq_le (le_trans (by norm_num) p0)
    have pu : √((x : ℝ) ^ 2 + (y : ℝ) ^ 2) ≤ 2 ^ 40 := (Real.sqrt_le_sqrt (pL.trans big)).trans (by
      rw [show (2 : ℝ) ^ 80 = (2 ^ 40) ^ 2 by norm_num, Real.sqrt_sq (by positivity)])
    have D : Dom L (L * u) := by
      refine ⟨L1, L2.trans (by norm_num), ?_, by nlinarith⟩
      rw [ex] at pl
      norm_num at pl ⊢
      linarith
    have sb := p2_sb hx hy (√((x : ℝ) ^ 2 + (y : ℝ) ^ 2)) (Real.sq_sqrt pn) (le_trans (by norm_num) pl) pu
    have es : √((x : ℝ) ^ 2 + (y : ℝ) ^ 2) = 6378137 * (L ^ 0 * (L * u) ^ 1) := by rw [ex]; ring
    have es' : √((x : ℝ) ^ 2 + (y : ℝ) ^ 2) = 6378137 * (L * u) := by rw [ex]; ring
    obtain ⟨n1, n2, n3, n4⟩ := latHeight_near hat C ε1 ε2 L (L * u) u s rfl u0 s0 us D _ _
      ((sb.congr (by rw [es'])).scale (by rw [es])) |z| iz (by rw [← ez]; push_cast; rfl)
    obtain ⟨φ, h, hφ⟩ : ∃ φ h, (φ, h) = (convR 6378137 f).latHeight ((6378137 * L * u) ^ 2) (6378137 * (1 - f) * L * s) :=
      ⟨_, _, rfl⟩
    obtain ⟨T, r1, r2, hT⟩ := wgs_residual f L u s f0 f1 L1 u0 s0 us φ h hφ
    have hφ1 : |φ| ≤ Real.pi / 2 := by
      have : φ = Real.arctan (Halley.Y (1 - (1 - f) ^ 2) L u s / ((1 - f) * Halley.X (1 - (1 - f) ^ 2) L u s)) := by
        rw [latHeight_scaled 6378137 f L u s (by norm_num) (by linarith) Lp u0 us] at hφ
        exact (Prod.mk.inj hφ).1
      rw [this, abs_le]
      exact ⟨(Real.neg_pi_div_two_lt_arctan _).le, (Real.arctan_lt_pi_div_two _).le⟩
    rw [← hφ] at n1 n2 n3 n4
    obtain ⟨φr, i1, d1⟩ := n1
    obtain ⟨hr, i2, d2⟩ := n2
    simp only at d1 d2 n3 n4
    obtain ⟨m1, m2⟩ := merid_lip (1 - f) 6378137 φ φr h hr _ _ _ (by linarith) (by linarith) (by norm_num) d1 d2 n3
    refine ⟨φr, hr, i1, i2, ?_, ?_, ?_⟩
    · have e : (φr : ℝ) = φ + (φr - φ) := by ring
      rw [e]
      refine (abs_add_le _ _).trans (add_le_add hφ1 (d1.trans (by norm_num)))
    · have := (abs_le.mp d2).1
      linarith
    · rw [ex, ez]
      set R := (6378137 / √(Real.cos (φr : ℝ) ^ 2 + (1 - f) ^ 2 * Real.sin (φr : ℝ) ^ 2) + hr) * Real.cos (φr : ℝ)
      set Z := ((1 - f) ^ 2 * (6378137 / √(Real.cos (φr : ℝ) ^ 2 + (1 - f) ^ 2 * Real.sin (φr : ℝ) ^ 2)) + hr) * Real.sin (φr : ℝ)
      rw [r1] at m1
      rw [r2] at m2
      have e1 : R - 6378137 * L * u = (-(T * Real.sin φ)) + (R - (6378137 * L * u - T * Real.sin φ)) := by ring
      have e2 : Z - 6378137 * (1 - f) * L * s = T * Real.cos φ + (Z - (6378137 * (1 - f) * L * s + T * Real.cos φ)) := by ring
      rw [e1, e2]
      have e3 : (0 : ℝ) ^ 2 = (0 + 0) ^ 2 := by norm_num
      rw [e3]
      refine (tri3 _ _ _ _ _ _).trans (add_le_add ?_ ((norm2_le _ _ _ m1 m2).trans ?_))
      · have : (-(T * Real.sin φ)) ^ 2 + (T * Real.cos φ) ^ 2 + 0 ^ 2 = T ^ 2 := by
          have := Real.sin_sq_add_cos_sq φ
          linear_combination T ^ 2 * this
        rw [this, Real.sqrt_sq_eq_abs]
        exact hT
      · norm_num
        linarith
  | false =>
    have p0 := hb2 rfl
    have pu : √((x : ℝ) ^ 2 + (y : ℝ) ^ 2) ≤ 64 / 10 ^ 11 := by
      apply Real.sqrt_le_iff.mpr
      exact ⟨by norm_num, p0.trans (by norm_num)⟩
    have zb : 0.98 * (6378137 * (1 - f)) ≤ |(z : ℝ)| := by
      have h1 : ((x : ℝ) ^ 2 + (y : ℝ) ^ 2) / 6378137 ^ 2 ≤ 0.0001 := by
        rw [div_le_iff₀ (by norm_num)]; norm_num at p0 ⊢; linarith
      have h2 : (0.99 : ℝ) ^ 2 ≤ L ^ 2 := pow_le_pow_left₀ (by norm_num) L1 2
      have h3 : (0.98 : ℝ) ^ 2 ≤ (z : ℝ) ^ 2 / (6378137 * (1 - f)) ^ 2 := by linarith
      rw [le_div_iff₀ (by positivity), ← mul_pow, ← sq_abs (z : ℝ)] at h3
      exact (abs_le_of_sq_le_sq' h3 (abs_nonneg _)).2
    have zL : |(z : ℝ)| ≤ 0.9967 * (6378137 * L) := by
      have : (z : ℝ) ^ 2 / (6378137 * (1 - f)) ^ 2 ≤ L ^ 2 := by
        have : 0 ≤ ((x : ℝ) ^ 2 + (y : ℝ) ^ 2) / 6378137 ^ 2 := by positivity
        linarith
      rw [div_le_iff₀ (by positivity)] at this
      have h2 : |(z : ℝ)| ≤ L * (6378137 * (1 - f)) := abs_le_of_sq_le_sq (by rw [mul_pow]; exact this) (by positivity)
      refine h2.trans ?_
      nlinarith
    obtain ⟨pr, -, -, -, -, ip, -, -, -, -, -, -, pe, -⟩ := C61_constants_f64
    have i2 : Is (lit 2 : F64) 2 := by have := Is.lit_int 2 (by norm_num); norm_num at this; exact this
    have npi : NB (Arith.pi : F64) Real.pi (1 / 2 ^ 52) 4 := ⟨⟨pr, ip, pe.le⟩, by
      rw [abs_of_pos Real.pi_pos]; exact Real.pi_lt_four.le⟩
    have nph := npi.div (NB.of_is' i2 (a := 2) (M := 2) (by norm_num) (by norm_num)) (β := 2) (E := 5 / 10 ^ 16) (M := 2) (by norm_num)
      (by norm_num) (by norm_num)
    obtain ⟨φr, i3, d1, -⟩ := nph.exists_is
    have ok : Ok (6378137 * L) := by
      constructor
      · refine le_trans (by norm_num) (mul_le_mul_of_nonneg_left L1 (show (0 : ℝ) ≤ 6378137 by norm_num))
      · refine (mul_le_mul_of_nonneg_left L2 (show (0 : ℝ) ≤ 6378137 by norm_num)).trans (by norm_num)
    have sz := SB.of_is iz ok (M := 0.9967) (by push_cast; rw [abs_abs]; exact zL)
    have sbb := (SB.of_nb C.b).rescale ok (k := 1.0102 / 6378137) (E := 4 / 10 ^ 16) (M := 1.007) (by
      linarith) (by norm_num)
    have sh := sz.sub sbb (E := 7 / 10 ^ 16) (M := 2.1) (by norm_num)
    obtain ⟨hr, i4, d2⟩ := sh.near
    push_cast at d2
    have hH : |(|(z : ℝ)| - 6378137 * (1 - f))| ≤ 2.1 * (6378137 * L) := by
      have := sh.mag
      push_cast at this
      exact this
    obtain ⟨m1, m2⟩ := merid_lip (1 - f) 6378137 (Real.pi / 2) φr (|(z : ℝ)| - 6378137 * (1 - f)) hr _ _ _ (by linarith) (by linarith)
      (by norm_num) d1 d2 hH
    refine ⟨φr, hr, i3, i4, ?_, ?_, ?_⟩
    · have e : (φr : ℝ) = Real.pi / 2 + (φr - Real.pi / 2) := by ring
      rw [e]
      refine (abs_add_le _ _).trans (add_le_add (le_of_eq (abs_of_pos (by positivity))) (d1.trans (by norm_num)))
    · have := (abs_le.mp d2).1
      linarith
    · rw [Real.cos_pi_div_two, mul_zero, sub_zero] at m1
      have e0 : ((1 - f) ^ 2 * (6378137 / √(0 ^ 2 + (1 - f) ^ 2 * 1 ^ 2)) + (|(z : ℝ)| - 6378137 * (1 - f))) * 1 = |(z : ℝ)| := by
        have : √(0 ^ 2 + (1 - f) ^ 2 * 1 ^ 2) = 1 - f := by
          rw [one_pow, mul_one, zero_pow (by norm_num), zero_add, Real.sqrt_sq ep.le]
        rw [this]
        field_simp
        ring
      rw [Real.sin_pi_div_two, Real.cos_pi_div_two, e0] at m2
      refine (norm3_le _ _ _).trans ?_
      rw [abs_zero, add_zero]
      have h5 := (abs_sub (((6378137 / √(Real.cos (φr : ℝ) ^ 2 + (1 - f) ^ 2 * Real.sin (φr : ℝ) ^ 2) + hr) * Real.cos (φr : ℝ)))
        (√((x : ℝ) ^ 2 + (y : ℝ) ^ 2))).trans (add_le_add m1 (le_of_eq (abs_of_nonneg (Real.sqrt_nonneg _))))
      refine (add_le_add h5 m2).trans ?_
      generalize |1 - 1 / L| ^ 3 = c at l0 ⊢
      norm_num at pu ⊢
      linarith

end

/-- Everything known about the result, in the meridian plane. -/
theorem geo_parts [Libm F64] (hL : LibmAcc)
    (hat : ∀ (x : F64) (a : ℚ), Is x a → Near (Libm.atan x) (Real.arctan a) (1 / 2 ^ 50))
    (w : EllipsoidConverter F64) (hw : EllipsoidConverter.new WGS84 = .ok w) (v : Vec3 F64) (x y z : ℚ)
    (hx : Is v.x x) (hy : Is v.y y) (hz : Is v.z z) (k L : ℝ) (hk : k = 1 - 1 / 298.257223563)
    (hL2 : L ^ 2 = ((x : ℝ) ^ 2 + (y : ℝ) ^ 2) / 6378137 ^ 2 + (z : ℝ) ^ 2 / (6378137 * k) ^ 2) (out : 0.99 ≤ L) (far : L ≤ 10 ^ 4) :
    ∃ lam φ h S : ℚ, Is (w.geocentricToGeodetic v).elong lam ∧ Is (w.geocentricToGeodetic v).phi (S * φ) ∧
      Is (w.geocentricToGeodetic v).height h ∧ (S = 1 ∧ 0 ≤ z ∨ S = -1 ∧ z < 0) ∧ (z : ℝ) = S * |(z : ℝ)| ∧
      |(φ : ℝ)| ≤ Real.pi / 2 + 3 / 10 ^ 14 ∧ -0.04 * 6378137 ≤ (h : ℝ) ∧
      √(((6378137 / √(Real.cos φ ^ 2 + k ^ 2 * Real.sin φ ^ 2) + h) * Real.cos φ - √((x : ℝ) ^ 2 + (y : ℝ) ^ 2)) ^ 2 +
        ((k ^ 2 * (6378137 / √(Real.cos φ ^ 2 + k ^ 2 * Real.sin φ ^ 2)) + h) * Real.sin φ - |(z : ℝ)|) ^ 2 + 0 ^ 2) ≤
        0.005 * |1 - 1 / L| ^ 3 + 1.05e-6 * L ∧
      |√((x : ℝ) ^ 2 + (y : ℝ) ^ 2) * Real.cos lam - x| ≤ 1 / 10 ^ 15 * (6378137 * L) + 2 / 10 ^ 9 ∧
      |√((x : ℝ) ^ 2 + (y : ℝ) ^ 2) * Real.sin lam - y| ≤ 1 / 10 ^ 15 * (6378137 * L) + 2 / 10 ^ 9 ∧
      (64 / 10 ^ 11 < √((x : ℝ) ^ 2 + (y : ℝ) ^ 2) →
        |(lam : ℝ)| ≤ 10 ∧ ∃ n : ℤ, |(lam : ℝ) - (Complex.arg ⟨x, y⟩ + n * (2 * Real.pi))| ≤ 1 / 2 ^ 50) := by
  have C := wgsConst hw
  have L0 : 0 < L := by linarith
  have kp : 0 < k := by rw [hk]; norm_num
  have pn : 0 ≤ (x : ℝ) ^ 2 + (y : ℝ) ^ 2 := by positivity
  have pL : (x : ℝ) ^ 2 + (y : ℝ) ^ 2 ≤ (6378137 * L) ^ 2 := by
    have h0 : 0 ≤ (z : ℝ) ^ 2 / (6378137 * k) ^ 2 := by positivity
    have : ((x : ℝ) ^ 2 + (y : ℝ) ^ 2) / 6378137 ^ 2 ≤ L ^ 2 := by linarith
    rw [div_le_iff₀ (by norm_num)] at this
    linarith
  have pl : √((x : ℝ) ^ 2 + (y : ℝ) ^ 2) ≤ 6378137 * L :=
    (Real.sqrt_le_sqrt pL).trans (le_of_eq (Real.sqrt_sq (by positivity)))
  have big : (6378137 * L) ^ 2 ≤ 2 ^ 80 := (pow_le_pow_left₀ (by positivity) (mul_le_mul_of_nonneg_left far (by norm_num)) 2).trans (by norm_num)
  obtain ⟨φ, h, i1, i2, hφ, hh, hd⟩ := merid_f64 hat C (by norm_num) (by norm_num) (by norm_num) (by norm_num) v.x v.y v.z x y z hx hy hz L
    (by rw [← hk]; exact hL2) out far
  rw [← hk] at hd
  have i0 : Is (lit 0 : F64) 0 := by have := Is.lit_int 0 (by norm_num); norm_num at this; exact this
  -- longitude
  have lon : ∃ lam : ℚ, Is (w.geocentricToGeodetic v).elong lam ∧
      |√((x : ℝ) ^ 2 + (y : ℝ) ^ 2) * Real.cos lam - x| ≤ 1 / 10 ^ 15 * (6378137 * L) + 2 / 10 ^ 9 ∧
      |√((x : ℝ) ^ 2 + (y : ℝ) ^ 2) * Real.sin lam - y| ≤ 1 / 10 ^ 15 * (6378137 * L) + 2 / 10 ^ 9 ∧
      (64 / 10 ^ 11 < √((x : ℝ) ^ 2 + (y : ℝ) ^ 2) →
        |(lam : ℝ)| ≤ 10 ∧ ∃ n : ℤ, |(lam : ℝ) - (Complex.arg ⟨x, y⟩ + n * (2 * Real.pi))| ≤ 1 / 2 ^ 50) := by
    have hg : (w.geocentricToGeodetic v).elong = if lit 0 <. sq v.x +. sq v.y then Libm.atan2 v.y v.x else lit 0 := rfl
    rw [hg]
    have p0 := Real.sqrt_nonneg ((x : ℝ) ^ 2 + (y : ℝ) ^ 2)
    by_cases hc : (lit 0 <. sq v.x +. sq v.y) = true
    · rw [if_pos hc]
      have ne : x ≠ 0 ∨ y ≠ 0 := by
        by_contra hn
        push Not at hn
        obtain ⟨rfl, rfl⟩ := hn
        have e1 := hx.mul hx (by rw [mul_zero, abs_zero]; exact HUGE_pos.le)
        have e2 := hy.mul hy (by rw [mul_zero, abs_zero]; exact HUGE_pos.le)
        rw [mul_zero, RN_zero] at e1 e2
        have e3 := e1.add e2 (by rw [add_zero, abs_zero]; exact HUGE_pos.le)
        rw [add_zero, RN_zero] at e3
        have : (lit 0 <. v.x *. v.x +. v.y *. v.y) = true := hc
        rw [i0.lt e3] at this
        simp at this
      obtain ⟨n, hn1, lam, il, dl⟩ := hL.atan2 v.y v.x y x hy hx ne
      refine ⟨lam, il, ?_⟩
      have c1 := Complex.norm_mul_cos_arg ⟨(x : ℝ), (y : ℝ)⟩
      have c2 := Complex.norm_mul_sin_arg ⟨(x : ℝ), (y : ℝ)⟩
      rw [Complex.norm_def, Complex.normSq_mk, ← pow_two, ← pow_two] at c1 c2
      simp only at c1 c2
      set θ := Complex.arg ⟨(x : ℝ), (y : ℝ)⟩
      have d1 := (Real.abs_cos_sub_cos_le (lam : ℝ) (θ + n * (2 * Real.pi))).trans dl
      have d2 := (Real.abs_sin_sub_sin_le (lam : ℝ) (θ + n * (2 * Real.pi))).trans dl
      rw [Real.cos_add_int_mul_two_pi] at d1
      rw [Real.sin_add_int_mul_two_pi] at d2
      have lam10 : |(lam : ℝ)| ≤ 10 := by
        have hn2 : |(n : ℝ)| ≤ 1 := by exact_mod_cast hn1
        have t1 : |θ| ≤ Real.pi := Complex.abs_arg_le_pi _
        have t2 := Real.pi_lt_d2
        have t3 := Real.pi_pos
        have t4 : |(n : ℝ) * (2 * Real.pi)| ≤ 2 * Real.pi := by
          rw [abs_mul, abs_of_pos (by positivity : 0 < 2 * Real.pi)]
          nlinarith
        rw [abs_le] at *
        norm_num at *
        constructor <;> linarith
      refine ⟨?_, ?_, fun _ => ⟨lam10, n, dl⟩⟩
      · have e : √((x : ℝ) ^ 2 + (y : ℝ) ^ 2) * Real.cos lam - x = √((x : ℝ) ^ 2 + (y : ℝ) ^ 2) * (Real.cos lam - Real.cos θ) := by
          linear_combination c1
        rw [e, abs_mul, abs_of_nonneg p0]
        have := mul_le_mul pl d1 (abs_nonneg _) (by positivity)
        refine this.trans ?_
        norm_num; linarith
      · have e : √((x : ℝ) ^ 2 + (y : ℝ) ^ 2) * Real.sin lam - y = √((x : ℝ) ^ 2 + (y : ℝ) ^ 2) * (Real.sin lam - Real.sin θ) := by
          linear_combination c2
        rw [e, abs_mul, abs_of_nonneg p0]
        have := mul_le_mul pl d2 (abs_nonneg _) (by positivity)
        refine this.trans ?_
        norm_num; linarith
    · rw [if_neg hc]
      refine ⟨0, i0, ?_⟩
      obtain ⟨b, hb, -, hb2⟩ := cut_iff C hx hy (pL.trans big)
      have hbf : b = false := by
        obtain ⟨t, ht, t1, -⟩ := C.aeps2
        cases b with
        | false => rfl
        | true =>
          exfalso
          obtain ⟨r, hr⟩ : ∃ r, Is (sq v.x +. sq v.y) r := by
            by_cases hp : (x : ℝ) ^ 2 + (y : ℝ) ^ 2 ≤ 1
            · have X1 : |(x : ℝ)| ≤ 1 := abs_le_of_sq_le_sq (by nlinarith [sq_nonneg (y : ℝ)]) (by norm_num)
              have Y1 : |(y : ℝ)| ≤ 1 := abs_le_of_sq_le_sq (by nlinarith [sq_nonneg (x : ℝ)]) (by norm_num)
              have nx := NB.of_is hx X1
              have ny := NB.of_is hy Y1
              have n := (nx.mul nx (E := 1) (M := 1) (by norm_num)).add (ny.mul ny (E := 1) (M := 1) (by norm_num))
                (E := 3) (M := 3) (by norm_num)
              obtain ⟨r, hr, -⟩ := n.exists_is
              exact ⟨r, hr⟩
            · push Not at hp
              have sb := p2_sb hx hy (√((x : ℝ) ^ 2 + (y : ℝ) ^ 2)) (Real.sq_sqrt pn) (Real.le_sqrt_of_sq_le (le_trans (by norm_num) hp.le))
                (pl.trans (by nlinarith))
              obtain ⟨r, hr, -⟩ := sb.near
              exact ⟨r, hr⟩
          rw [ht.lt hr, decide_eq_true_eq] at hb
          rw [i0.lt hr, decide_eq_true_eq] at hc
          exact hc (lt_trans (lt_of_lt_of_le (by norm_num) t1) hb)
      have p1 := hb2 hbf
      have pu : √((x : ℝ) ^ 2 + (y : ℝ) ^ 2) ≤ 64 / 10 ^ 11 := by
        apply Real.sqrt_le_iff.mpr
        exact ⟨by norm_num, p1.trans (by norm_num)⟩
      have X1 : |(x : ℝ)| ≤ 64 / 10 ^ 11 := abs_le_of_sq_le_sq (by norm_num at p1 ⊢; nlinarith [sq_nonneg (y : ℝ)]) (by norm_num)
      have Y1 : |(y : ℝ)| ≤ 64 / 10 ^ 11 := abs_le_of_sq_le_sq (by norm_num at p1 ⊢; nlinarith [sq_nonneg (x : ℝ)]) (by norm_num)
      rw [Rat.cast_zero, Real.cos_zero, Real.sin_zero, mul_one, mul_zero, zero_sub, abs_neg]
      have a1 := (abs_sub (√((x : ℝ) ^ 2 + (y : ℝ) ^ 2)) (x : ℝ)).trans (add_le_add (le_of_eq (abs_of_nonneg p0)) X1)
      have nf : ¬ 64 / 10 ^ 11 < √((x : ℝ) ^ 2 + (y : ℝ) ^ 2) := not_lt.mpr pu
      refine ⟨?_, ?_, fun h => absurd h nf⟩ <;> norm_num at a1 pu Y1 ⊢ <;> linarith
  obtain ⟨lam, i3, l1, l2, l3⟩ := lon
  have ip : (w.geocentricToGeodetic v).phi = if v.z <. lit 0 then Arith.neg (latHeightOf w (sq v.x +. sq v.y) (Arith.abs v.z)).1
    else (latHeightOf w (sq v.x +. sq v.y) (Arith.abs v.z)).1 := rfl
  have ih : (w.geocentricToGeodetic v).height = (latHeightOf w (sq v.x +. sq v.y) (Arith.abs v.z)).2 := rfl
  -- the sign of the latitude
  obtain ⟨S, hS, iS, hzS⟩ : ∃ S : ℚ, (S = 1 ∧ 0 ≤ z ∨ S = -1 ∧ z < 0) ∧ Is (w.geocentricToGeodetic v).phi (S * φ) ∧ (z : ℝ) = S * |(z : ℝ)| := by
    rw [ip]
    rw [hz.lt i0]
    by_cases hn : z < 0
    · refine ⟨-1, Or.inr ⟨rfl, hn⟩, ?_, ?_⟩
      · rw [if_pos (by simpa using hn), neg_one_mul]; exact i1.neg
      · rw [abs_of_neg (by exact_mod_cast hn)]; push_cast; ring
    · refine ⟨1, Or.inl ⟨rfl, not_lt.mp hn⟩, ?_, ?_⟩
      · rw [if_neg (by simpa using hn), one_mul]; exact i1
      · rw [abs_of_nonneg (by exact_mod_cast not_lt.mp hn)]; push_cast; ring
  exact ⟨lam, φ, h, S, i3, iS, by rw [ih]; exact i2, hS, hzS, hφ, hh, hd, l1, l2, l3⟩

/-! ## C79 -/

/-- **C79.** For every finite point above the WGS84 ellipsoid, up to ten thousand times its size, or below it by at
most a hundredth of its size, and every library
with `sin cos atan atan2` accurate to `2^-50`: the `f64` result of `geocentric_to_geodetic` is finite, its latitude lies
between the poles (to `3e-14`), and the point of space with exactly the returned longitude, latitude and height is within
`5 mm * |1 - 1/L|^3 + 1.1e-6 * L` metres of the given one, where `L` is the factor by which the ellipsoid must be scaled
to pass through the point.  The first term is the error of the single Halley step, the second all of the rounding. -/
theorem C79_geodetic_f64 [Libm F64] (hL : LibmAcc)
    (hat : ∀ (x : F64) (a : ℚ), Is x a → Near (Libm.atan x) (Real.arctan a) (1 / 2 ^ 50))
    (w : EllipsoidConverter F64) (hw : EllipsoidConverter.new WGS84 = .ok w) (v : Vec3 F64) (x y z : ℚ)
    (hx : Is v.x x) (hy : Is v.y y) (hz : Is v.z z) (k L : ℝ) (hk : k = 1 - 1 / 298.257223563)
    (hL2 : L ^ 2 = ((x : ℝ) ^ 2 + (y : ℝ) ^ 2) / 6378137 ^ 2 + (z : ℝ) ^ 2 / (6378137 * k) ^ 2) (out : 0.99 ≤ L) (far : L ≤ 10 ^ 4) :
    ∃ lam phi h : ℚ, Is (w.geocentricToGeodetic v).elong lam ∧ Is (w.geocentricToGeodetic v).phi phi ∧
      Is (w.geocentricToGeodetic v).height h ∧ |(phi : ℝ)| ≤ Real.pi / 2 + 3 / 10 ^ 14 ∧
      ∀ N : ℝ, N = 6378137 / √(Real.cos phi ^ 2 + k ^ 2 * Real.sin phi ^ 2) →
        √(((N + h) * Real.cos phi * Real.cos lam - x) ^ 2 + ((N + h) * Real.cos phi * Real.sin lam - y) ^ 2 +
          ((k ^ 2 * N + h) * Real.sin phi - z) ^ 2) ≤ 0.005 * |1 - 1 / L| ^ 3 + 1.1e-6 * L := by
  have L0 : 0 < L := by linarith
  obtain ⟨lam, φ, h, S, i3, iS, i2, hS, hzS, hφ, -, hd, l1, l2, -⟩ := geo_parts hL hat w hw v x y z hx hy hz k L hk hL2 out far
  have S2 : (S : ℝ) ^ 2 = 1 := by rcases hS with h | h <;> rw [h.1] <;> norm_num
  have eC : Real.cos ((S * φ : ℚ) : ℝ) = Real.cos φ := by rcases hS with h | h <;> rw [h.1] <;> push_cast <;> simp
  have eS : Real.sin ((S * φ : ℚ) : ℝ) = S * Real.sin φ := by rcases hS with h | h <;> rw [h.1] <;> push_cast <;> simp
  refine ⟨lam, S * φ, h, i3, iS, i2, ?_, ?_⟩
  · push_cast
    rw [abs_mul]
    have : |(S : ℝ)| = 1 := by rcases hS with h | h <;> rw [h.1] <;> norm_num
    rw [this, one_mul]
    exact hφ
  · intro N hN
    rw [eC, eS, mul_pow, S2, one_mul] at hN
    rw [← hN] at hd
    rw [eC, eS]
    set ρ := (N + h) * Real.cos φ
    set ζ := (k ^ 2 * N + h) * Real.sin φ with hζ
    set p := √((x : ℝ) ^ 2 + (y : ℝ) ^ 2)
    have e1 : ρ * Real.cos lam - x = (ρ - p) * Real.cos lam + (p * Real.cos lam - x) := by ring
    have e2 : ρ * Real.sin lam - y = (ρ - p) * Real.sin lam + (p * Real.sin lam - y) := by ring
    have e3 : (k ^ 2 * N + h) * (S * Real.sin φ) - z = S * (ζ - |(z : ℝ)|) + 0 := by
      rw [hζ]; linear_combination -hzS
    rw [e1, e2, e3]
    refine (tri3 _ _ _ _ _ _).trans ?_
    have e4 : ((ρ - p) * Real.cos lam) ^ 2 + ((ρ - p) * Real.sin lam) ^ 2 + (S * (ζ - |(z : ℝ)|)) ^ 2 =
        (ρ - p) ^ 2 + (ζ - |(z : ℝ)|) ^ 2 + 0 ^ 2 := by
      have := Real.sin_sq_add_cos_sq (lam : ℝ)
      linear_combination (ρ - p) ^ 2 * this + (ζ - |(z : ℝ)|) ^ 2 * S2
    rw [e4]
    refine (add_le_add hd (norm2_le _ _ _ l1 l2)).trans ?_
    generalize |1 - 1 / L| ^ 3 = c
    norm_num
    linarith

/-- A library that meets both hypotheses. -/
theorem goodLibm_atan : ∀ (x : F64) (a : ℚ), Is x a → Near (goodLibm.atan x) (Real.arctan a) (1 / 2 ^ 50) := by
  rintro x a ⟨-, rfl⟩
  have hpi := Real.pi_lt_four
  refine Classical.epsilon_spec (p := fun y => Near y (Real.arctan (v x)) (1 / 2 ^ 50)) (exists_near _ ?_)
  rw [abs_le]
  constructor
  · linarith [Real.neg_pi_div_two_lt_arctan ((v x : ℚ) : ℝ)]
  · linarith [Real.arctan_lt_pi_div_two ((v x : ℚ) : ℝ)]

/-- The hypotheses hold for a library that exists, the WGS84 converter and the point (4000 km, 3000 km, -5000 km). -/
example : ∃ L : Libm F64, @LibmAcc L ∧ (∀ (x : F64) (a : ℚ), Is x a → Near (L.atan x) (Real.arctan a) (1 / 2 ^ 50)) ∧
    ∃ w, EllipsoidConverter.new (WGS84 : Ellipsoid F64) = .ok w ∧
    ∃ v : Vec3 F64, Is v.x (4000000 : ℤ) ∧ Is v.y (3000000 : ℤ) ∧ Is v.z (-5000000 : ℤ) ∧
    ∃ L : ℝ, L ^ 2 = ((4000000 : ℝ) ^ 2 + 3000000 ^ 2) / 6378137 ^ 2 + (-5000000) ^ 2 / (6378137 * (1 - 1 / 298.257223563)) ^ 2 ∧
      1 ≤ L ∧ L ≤ 10 ^ 4 := by
  obtain ⟨w, hw⟩ := wgs84_f64
  refine ⟨goodLibm, exists_libmAcc, goodLibm_atan, w, hw, ⟨Arith.ofInt 4000000, Arith.ofInt 3000000, Arith.ofInt (-5000000)⟩,
    Is.ofInt 4000000 (by norm_num), Is.ofInt 3000000 (by norm_num), Is.ofInt (-5000000) (by norm_num),
    √(((4000000 : ℝ) ^ 2 + 3000000 ^ 2) / 6378137 ^ 2 + (-5000000) ^ 2 / (6378137 * (1 - 1 / 298.257223563)) ^ 2),
    Real.sq_sqrt (by positivity), Real.one_le_sqrt.mpr (by norm_num), Real.sqrt_le_iff.mpr ⟨by norm_num, by norm_num⟩⟩

end Verif
