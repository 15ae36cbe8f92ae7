import Verif.Props.NearRotation
import Verif.Float.SB

/-!
# C116: vectors turned in binary64
-/

namespace Verif
open Arith F64 Matrix Spec

/-- The components of `v` are finite and `V` holds their values. -/
def ValueOf (v : Vec3 F64) (V : Fin 3 → ℝ) : Prop :=
  (∃ q : ℚ, Is v.x q ∧ (q : ℝ) = V 0) ∧ (∃ q : ℚ, Is v.y q ∧ (q : ℝ) = V 1) ∧ ∃ q : ℚ, Is v.z q ∧ (q : ℝ) = V 2

theorem Near.value {x : F64} {q e : ℝ} (h : Near x q e) : ∃ r : ℝ, (∃ p : ℚ, Is x p ∧ (p : ℝ) = r) ∧ |r - q| ≤ e := by
  obtain ⟨p, h1, h2⟩ := h
  exact ⟨p, ⟨p, h1, rfl⟩, h2⟩

/-- `Matrix::apply` on a vector of any ordinary length. -/
theorem apply_turn {m : Mat3 F64} {R : Mat3 ℝ} {δ : ℝ} (hm : MN m R δ) (hR : IsRotation R) (hδ : δ ≤ 1 / 1000) {v : Vec3 F64}
    {V : Fin 3 → ℝ} (hv : ValueOf v V) (ho : Ok (len V)) :
    ∃ W, ValueOf (m.apply v) W ∧ len (W - R.toMatrixᵀ *ᵥ V) ≤ (δ + 2 / 10 ^ 15) * len V := by
  obtain ⟨M, h1, h2⟩ := hm
  obtain ⟨⟨a, ha, ha'⟩, ⟨b, hb, hb'⟩, ⟨c, hc, hc'⟩⟩ := hv
  have l0 := ho.pos
  have hM : ∀ i j, SB (m.get i j) (M i j) 0 1.001 1 := fun i j => by
    obtain ⟨q, hq, hq'⟩ := h1 i j
    refine SB.of_nb (NB.of_is' hq hq' ?_)
    have g1 := h2.entry i j
    have g2 := (MB.of_rotation hR).entry i j
    have : M i j = (M - R.toMatrix) i j + R.toMatrix i j := by rw [Matrix.sub_apply]; ring
    rw [this]
    refine (abs_add_le _ _).trans ?_
    norm_num at g1 g2 hδ ⊢
    linarith
  have cmp : ∀ {x : F64} {p : ℚ} {r : ℝ}, Is x p → (p : ℝ) = r → |r| ≤ len V → SB x r 0 1 (len V) := fun h h' hr =>
    (SB.of_is h ho (by rw [h', one_mul]; exact hr)).congr h'
  have n0 := cmp ha ha' (abs_le_len V 0)
  have n1 := cmp hb hb' (abs_le_len V 1)
  have n2 := cmp hc hc' (abs_le_len V 2)
  have key : ∀ {a b c : F64} {A B C : ℝ}, SB a A 0 1.001 1 → SB b B 0 1.001 1 → SB c C 0 1.001 1 →
      SB ((a *. v.x +. b *. v.y) +. c *. v.z) (A * V 0 + B * V 1 + C * V 2) (11 / 10 ^ 16) 3.01 (1 * len V) := by
    intro a b c A B C ga gb gc
    have ho' : Ok (1 * len V) := by rwa [one_mul]
    have p0 := ga.mul n0 ho' (E := 1.2 / 10 ^ 16) (M := 1.001) (by norm_num)
    have p1 := gb.mul n1 ho' (E := 1.2 / 10 ^ 16) (M := 1.001) (by norm_num)
    have p2 := gc.mul n2 ho' (E := 1.2 / 10 ^ 16) (M := 1.001) (by norm_num)
    have s1 := p0.add p1 (E := 4.7 / 10 ^ 16) (M := 2.002) (by norm_num)
    exact s1.add p2 (by norm_num)
  obtain ⟨r0, i0, d0⟩ := (key (hM 0 0) (hM 1 0) (hM 2 0)).near.value
  obtain ⟨r1, i1, d1⟩ := (key (hM 0 1) (hM 1 1) (hM 2 1)).near.value
  obtain ⟨r2, i2, d2⟩ := (key (hM 0 2) (hM 1 2) (hM 2 2)).near.value
  rw [one_mul] at d0 d1 d2
  refine ⟨![r0, r1, r2], ⟨i0, i1, i2⟩, ?_⟩
  have g1 := h2.transpose.vec V
  have d : len (![r0, r1, r2] - Mᵀ *ᵥ V) ≤ 2 / 10 ^ 15 * len V := by
    refine len_le_of (e := 11 / 10 ^ 16 * len V) (fun i => ?_) ?_ (by positivity)
    · fin_cases i
      all_goals simp [Matrix.mulVec, dotProduct, Fin.sum_univ_three, Matrix.transpose_apply]
      · simpa using d0
      · simpa using d1
      · simpa using d2
    · rw [mul_pow, mul_pow]
      have : 0 ≤ len V ^ 2 := sq_nonneg _
      norm_num
      linarith
  have e1 : ![r0, r1, r2] - R.toMatrixᵀ *ᵥ V = (![r0, r1, r2] - Mᵀ *ᵥ V) + (M - R.toMatrix)ᵀ *ᵥ V := by
    rw [Matrix.transpose_sub, Matrix.sub_mulVec]; abel
  rw [e1, add_mul]
  refine (len_add _ _).trans ?_
  linarith

theorem len_turn {R : Mat3 ℝ} (hR : IsRotation R) (V : Fin 3 → ℝ) : len (R.toMatrixᵀ *ᵥ V) = len V := by
  have bR := MB.of_rotation hR
  obtain ⟨o, -⟩ := (isRotation_iff _).mp hR
  apply le_antisymm
  · simpa using bR.transpose.vec V
  · have := bR.vec (R.toMatrixᵀ *ᵥ V)
    rw [Matrix.mulVec_mulVec, o, Matrix.one_mulVec, one_mul] at this
    exact this

/-- `m.apply` keeps the length of every vector to a fraction `e`, the scalar product of every two to `2.1 e` of the product of their
lengths, and `m.transpose().apply` undoes it to `2.1 e` of the length. The lengths are between `2 ^ -200` and `2 ^ 200`. -/
def TurnsWithin (m : Mat3 F64) (e : ℝ) : Prop :=
  ∀ (v v' : Vec3 F64) (V V' : Fin 3 → ℝ), ValueOf v V → ValueOf v' V' → 1 / 2 ^ 200 ≤ len V → len V ≤ 2 ^ 200 → 1 / 2 ^ 200 ≤ len V' →
    len V' ≤ 2 ^ 200 → ∃ W W' U, ValueOf (m.apply v) W ∧ ValueOf (m.apply v') W' ∧ ValueOf (m.transpose.apply (m.apply v)) U ∧
      |len W - len V| ≤ e * len V ∧
      |(W 0 * W' 0 + W 1 * W' 1 + W 2 * W' 2) - (V 0 * V' 0 + V 1 * V' 1 + V 2 * V' 2)| ≤ 2.1 * e * (len V * len V') ∧
      len (U - V) ≤ 2.1 * e * len V

theorem ok_of {r : ℝ} (h : 1 / 2 ^ 201 ≤ r) (h' : r ≤ 2 ^ 201) : Ok r :=
  ⟨le_trans (by norm_num) h, h'.trans (by norm_num)⟩

theorem dot_turn {R : Mat3 ℝ} (hR : IsRotation R) (V V' : Fin 3 → ℝ) :
    (R.toMatrixᵀ *ᵥ V) ⬝ᵥ (R.toMatrixᵀ *ᵥ V') = V ⬝ᵥ V' := by
  obtain ⟨o, -⟩ := (isRotation_iff _).mp hR
  rw [Matrix.dotProduct_mulVec, Matrix.vecMul_transpose, Matrix.mulVec_mulVec, o, Matrix.one_mulVec]

theorem NearRot.turns {m : Mat3 F64} {δ e : ℝ} (h : NearRot m δ) (he : δ + 2 / 10 ^ 15 ≤ e) (he1 : e ≤ 1 / 1000) : TurnsWithin m e := by
  obtain ⟨R, hR, hm⟩ := h
  have δ0 := hm.e_nonneg
  have e0 : 0 ≤ e := by norm_num at he; linarith
  have hδ : δ ≤ 1 / 1000 := by norm_num at he; linarith
  intro v v' V V' hv hv' l1 l2 l1' l2'
  have ok : ∀ {r : ℝ}, 1 / 2 ^ 200 ≤ r → r ≤ 2 ^ 200 → Ok r := fun h h' => ok_of (le_trans (by norm_num) h) (h'.trans (by norm_num))
  have L0 := (ok l1 l2).pos
  have L0' := (ok l1' l2').pos
  obtain ⟨W, hW, dW⟩ := apply_turn hm hR hδ hv (ok l1 l2)
  obtain ⟨W', hW', dW'⟩ := apply_turn hm hR hδ hv' (ok l1' l2')
  replace dW := dW.trans (mul_le_mul_of_nonneg_right he L0.le)
  replace dW' := dW'.trans (mul_le_mul_of_nonneg_right he L0'.le)
  have lenW : |len W - len V| ≤ e * len V := by
    have b1 := len_add (R.toMatrixᵀ *ᵥ V) (W - R.toMatrixᵀ *ᵥ V)
    have b2 := len_sub W (W - R.toMatrixᵀ *ᵥ V)
    rw [add_sub_cancel, len_turn hR] at b1
    rw [sub_sub_cancel, len_turn hR] at b2
    rw [abs_le]
    constructor <;> linarith
  have eV : e * len V ≤ 1 / 1000 * len V := mul_le_mul_of_nonneg_right he1 L0.le
  obtain ⟨w1, w2⟩ := abs_le.mp lenW
  have okW : Ok (len W) := ok_of (by
    have : (1 : ℝ) / 2 ^ 201 = 1 / 2 ^ 200 / 2 := by norm_num
    rw [this]; linarith) (by
    have : (2 : ℝ) ^ 201 = 2 * 2 ^ 200 := by norm_num
    rw [this]; linarith)
  obtain ⟨U, hU, dU⟩ := apply_turn hm.transpose hR.transpose hδ hW okW
  refine ⟨W, W', U, hW, hW', hU, lenW, ?_, ?_⟩
  · obtain ⟨D, hD⟩ : ∃ D, D = W - R.toMatrixᵀ *ᵥ V := ⟨_, rfl⟩
    obtain ⟨D', hD'⟩ : ∃ D', D' = W' - R.toMatrixᵀ *ᵥ V' := ⟨_, rfl⟩
    rw [← hD] at dW
    rw [← hD'] at dW'
    have t := dot_turn hR V V'
    have g := len_turn hR V
    have g' := len_turn hR V'
    have eW : W = R.toMatrixᵀ *ᵥ V + D := by rw [hD]; abel
    have eW' : W' = R.toMatrixᵀ *ᵥ V' + D' := by rw [hD']; abel
    rw [eW, eW']
    generalize R.toMatrixᵀ *ᵥ V = P at *
    generalize R.toMatrixᵀ *ᵥ V' = P' at *
    simp only [dotProduct, Fin.sum_univ_three] at t
    have q1 := dot_le P D'
    have q2 := dot_le D P'
    have q3 := dot_le D D'
    rw [g] at q1
    rw [g'] at q2
    have k1 : len V * len D' ≤ e * (len V * len V') := by
      calc _ ≤ len V * (e * len V') := by gcongr
        _ = _ := by ring
    have k2 : len D * len V' ≤ e * (len V * len V') := by
      calc _ ≤ e * len V * len V' := by gcongr
        _ = _ := by ring
    have k3 : len D * len D' ≤ e * (1 / 1000) * (len V * len V') := by
      calc _ ≤ (e * len V) * (1 / 1000 * len V') := mul_le_mul dW (dW'.trans (mul_le_mul_of_nonneg_right he1 L0'.le)) (len_nonneg _) (by positivity)
        _ = _ := by ring
    have e1 : ((P + D) 0 * (P' + D') 0 + (P + D) 1 * (P' + D') 1 + (P + D) 2 * (P' + D') 2) - (V 0 * V' 0 + V 1 * V' 1 + V 2 * V' 2)
        = (P 0 * D' 0 + P 1 * D' 1 + P 2 * D' 2) + (D 0 * P' 0 + D 1 * P' 1 + D 2 * P' 2) + (D 0 * D' 0 + D 1 * D' 1 + D 2 * D' 2) := by
      rw [← t]
      simp only [Pi.add_apply]
      ring
    rw [e1]
    refine (abs_add_three _ _ _).trans ?_
    have : 0 ≤ e * (len V * len V') := by positivity
    norm_num at k3 ⊢
    linarith
  · rw [Mat3.toMatrix_transpose, Matrix.transpose_transpose] at dU
    replace dU := dU.trans (mul_le_mul_of_nonneg_right he (len_nonneg W))
    obtain ⟨o, -⟩ := (isRotation_iff _).mp hR
    have e1 : U - V = (U - R.toMatrix *ᵥ W) + R.toMatrix *ᵥ (W - R.toMatrixᵀ *ᵥ V) := by
      rw [Matrix.mulVec_sub, Matrix.mulVec_mulVec, o, Matrix.one_mulVec]; abel
    rw [e1]
    have g := (MB.of_rotation hR).vec (W - R.toMatrixᵀ *ᵥ V)
    refine (len_add _ _).trans ?_
    have k : e * len W ≤ e * (1.001 * len V) := by
      refine mul_le_mul_of_nonneg_left ?_ e0
      norm_num at eV ⊢
      linarith
    have : 0 ≤ e * len V := by positivity
    norm_num at k ⊢
    linarith

theorem NearRot.transpose {m : Mat3 F64} {e : ℝ} (h : NearRot m e) : NearRot m.transpose e := by
  obtain ⟨R, hR, hm⟩ := h
  exact ⟨_, hR.transpose, hm.transpose⟩

/-- Both ways round: `apply` and then back, and the transposed matrix first. -/
def TurnsBothWays (m : Mat3 F64) (e : ℝ) : Prop := TurnsWithin m e ∧ TurnsWithin m.transpose e

theorem NearRot.both {m : Mat3 F64} {δ e : ℝ} (h : NearRot m δ) (he : δ + 2 / 10 ^ 15 ≤ e) (he1 : e ≤ 1 / 1000) : TurnsBothWays m e :=
  ⟨h.turns he he1, h.transpose.turns he he1⟩

variable [Libm F64] (hL : LibmAcc)
include hL

/-- **C116.** At every date in two parts of up to `2 ^ 27` days, `f64` vectors turned by the bias-precession-nutation
matrix keep lengths to `9e-14` and scalar products to `1.9e-13`, and come back to `1.9e-13`. -/
theorem C116_any_date (x y : F64) (a b : ℚ) (hx : Is x a) (hy : Is y b) (ha : |a| ≤ 2 ^ 27) (hb : |b| ≤ 2 ^ 27) :
    TurnsBothWays (precessionNutation (x, y)) (9 / 10 ^ 14) :=
  (bpn_nearRot hL (centuries_bd ⟨a, hx, ha⟩ ⟨b, hy, hb⟩)).both (by norm_num) (by norm_num)

/-- **C116.** So do vectors turned by an elementary rotation through up to `2 ^ 30` radians, to `6e-15`. -/
theorem C116_rotation (x : F64) (a : ℚ) (hx : Is x a) (ha : |a| ≤ 2 ^ 30) (axis : Fin 3) : TurnsBothWays (Mat3.rotation axis x) (6 / 10 ^ 15) :=
  (NearRot.rotation hL ⟨a, hx, ha⟩ axis).both (by norm_num) (by norm_num)

/-- **C116.** So do vectors taken to the terrestrial frame and back within a century of J2000.0, to `6e-14`. -/
theorem C116_terrestrial (x y u w xp yp : F64) (a b c d p q : ℚ) (hx : Is x a) (hy : Is y b) (hu : Is u c) (hw : Is w d)
    (hxp : Is xp p) (hyp : Is yp q) (ha : |a| ≤ 4000000) (h : |a + b - 2451545| ≤ 36525) (hc : |c| ≤ 2 ^ 1000) (hd : |d| ≤ 2 ^ 1000)
    (hp : |p| ≤ 2 ^ 29) (hq : |q| ≤ 2 ^ 29) :
    TurnsBothWays (celestialToIntermediate (x, y)) (3 / 10 ^ 14) ∧
      TurnsBothWays (celestialToTerrestrial (x, y) (u, w) xp yp) (6 / 10 ^ 14) :=
  ⟨(c2i_nearRot hL hx hy ha h).both (by norm_num) (by norm_num),
    (c2t_nearRot hL hx hy hu hw hxp hyp ha h hc hd hp hq).both (by norm_num) (by norm_num)⟩

omit hL in
/-- A vector that meets the hypotheses. -/
example : ValueOf ⟨lit 3, lit 0, lit 4⟩ ![3, 0, 4] ∧ len ![3, 0, 4] = 5 ∧ (1 / 2 ^ 200 : ℝ) ≤ 5 ∧ (5 : ℝ) ≤ 2 ^ 200 := by
  have i3 : Is (lit 3 : F64) 3 := by
    have := Is.lit_int 3 (by norm_num)
    push_cast at this
    exact this
  have i4 : Is (lit 4 : F64) 4 := by
    have := Is.lit_int 4 (by norm_num)
    push_cast at this
    exact this
  refine ⟨⟨⟨3, i3, by norm_num⟩, ⟨0, zero_is, by norm_num⟩, ⟨4, i4, by push_cast; rfl⟩⟩, ?_, by norm_num, by norm_num⟩
  unfold len
  rw [show (5 : ℝ) = Real.sqrt (5 ^ 2) by rw [Real.sqrt_sq (by norm_num)]]
  congr 1
  have e : (![3, 0, 4] : Fin 3 → ℝ) 2 = 4 := rfl
  rw [e]
  norm_num

end Verif
