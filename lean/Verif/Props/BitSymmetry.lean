import Verif.Props.GeodeticSymmetry

/-!
# C29, C30, C69: laws of the matrices and vectors that hold bit for bit in binary64
-/

namespace Verif
open Arith

/-- **C29.** In binary64, with a library whose sine is odd and whose cosine is even bit for bit, the rotation by the opposite angle is
the transpose, bit for bit, for every angle. -/
theorem C29_rotation_neg_f64 [Libm F64] (hsin : ∀ x : F64, Libm.sin (Arith.neg x) = Arith.neg (Libm.sin x))
    (hcos : ∀ x : F64, Libm.cos (Arith.neg x) = Libm.cos x) (axis : Fin 3) (t : F64) :
    Mat3.rotation axis (Arith.neg t) = (Mat3.rotation axis t).transpose := by
  unfold Mat3.rotation
  simp only [hsin, hcos, neg_neg_f64]
  generalize (Libm.sin t : F64) = s
  generalize (Libm.cos t : F64) = k
  fin_cases axis <;> rfl

/-- **C30.** In binary64 the transpose of a product is the product of the transposes in the other order, bit for bit, for all
matrices (NaN and infinities included); and transposing twice changes nothing. -/
theorem C30_transpose_f64 (m n : Mat3 F64) :
    (m.compose n).transpose = n.transpose.compose m.transpose ∧ m.transpose.transpose = m := by
  constructor
  · have g : ∀ (f : Fin 3 → Fin 3 → F64) (i j : Fin 3), (Mat3.ofFn f).get i j = f i j := by
      intro f i j
      fin_cases i <;> fin_cases j <;> rfl
    unfold Mat3.compose Mat3.transpose
    simp only [g]
    congr 1
    funext i j
    simp only [mul_comm_f64 (n.get _ _)]
  · rfl

theorem add_comm_f64 (x y : F64) : x +. y = y +. x := by
  show F64.add x y = F64.add y x
  rcases x with _ | s | ⟨s, a, h⟩ <;> rcases y with _ | t | ⟨t, b, k⟩ <;> try rfl
  · cases s <;> cases t <;> rfl
  · show (if F64.sval s a + F64.sval t b = 0 then F64.zero (s && t) else F64.ofQuot _ _ 1) =
      (if F64.sval t b + F64.sval s a = 0 then F64.zero (t && s) else F64.ofQuot _ _ 1)
    rw [add_comm (F64.sval s a), Bool.and_comm s]

/-- **C69.** In binary64 the sum and the scalar product of vectors do not depend on the order, bit for bit. -/
theorem C69_commutative_f64 (u v : Vec3 F64) : u.add v = v.add u ∧ u.dot v = v.dot u := by
  constructor
  · unfold Vec3.add
    rw [add_comm_f64 u.x, add_comm_f64 u.y, add_comm_f64 u.z]
  · unfold Vec3.dot
    rw [mul_comm_f64 u.x, mul_comm_f64 u.y, mul_comm_f64 u.z]

end Verif
