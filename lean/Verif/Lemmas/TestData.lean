import Verif.Model.TestsWhole
import Verif.Model.TestData.Era
import Verif.Model.TestData.Pr
import Verif.Model.TestData.C2t
import Verif.Float.Fast

/-!
# Evaluation of the tests that need no math library on their tables
-/

namespace Verif
open Tests F64

/-- Evaluating with the fast operations is evaluating. -/
theorem eval_fast {P : Arith F64 → Prop} (h : P F64.fast) : P inferInstance := F64.fast_eq ▸ h

/-- `compare_numbers` with the operations `A`, as a truth value. -/
def cmp (A : Arith F64) (a b : F64) : Bool := !(A.lt (@EPSILON F64 A) (A.abs (A.sub a b)))

theorem cmp_ok {a b : F64} (h : cmp inferInstance a b = true) : compareNumbers a b EPSILON = .ok () := by
  unfold cmp at h
  rw [Bool.not_eq_true'] at h
  unfold compareNumbers
  exact if_neg (by rw [show (EPSILON <. Arith.abs (a -. b)) = false from h]; simp)

/-- The comparison of one entry of `ERA00_DATA`. -/
def eraEntry (A : Arith F64) (d : Epv.Dec × Epv.Dec × Epv.Dec) : Bool :=
  cmp A (A.lit d.2.2.q) (@rotationAngle F64 A (A.lit d.1.q, A.lit d.2.1.q))

theorem era_0 : TestData.Era_0.all (eraEntry F64.fast) = true := by decide +kernel
theorem era_1 : TestData.Era_1.all (eraEntry F64.fast) = true := by decide +kernel
theorem era_2 : TestData.Era_2.all (eraEntry F64.fast) = true := by decide +kernel
theorem era_3 : TestData.Era_3.all (eraEntry F64.fast) = true := by decide +kernel
theorem era_4 : TestData.Era_4.all (eraEntry F64.fast) = true := by decide +kernel
theorem era_5 : TestData.Era_5.all (eraEntry F64.fast) = true := by decide +kernel
theorem era_6 : TestData.Era_6.all (eraEntry F64.fast) = true := by decide +kernel
theorem era_7 : TestData.Era_7.all (eraEntry F64.fast) = true := by decide +kernel
theorem era_8 : TestData.Era_8.all (eraEntry F64.fast) = true := by decide +kernel
theorem era_9 : TestData.Era_9.all (eraEntry F64.fast) = true := by decide +kernel

theorem era_all : ∀ d ∈ TestData.ERA00_DATA, eraEntry F64.fast d = true := by
  rw [← List.all_eq_true]
  unfold TestData.ERA00_DATA
  simp only [List.all_append, era_0, era_1, era_2, era_3, era_4, era_5, era_6, era_7, era_8, era_9, Bool.and_self]

/-- The comparisons of one entry of `PR00_DATA`. -/
def prEntry (A : Arith F64) (d : Epv.Dec × Epv.Dec × Epv.Dec × Epv.Dec) : Bool :=
  cmp A (A.lit d.2.2.1.q) (@precessionRate F64 A (A.lit d.1.q, A.lit d.2.1.q)).1 &&
    cmp A (A.lit d.2.2.2.q) (@precessionRate F64 A (A.lit d.1.q, A.lit d.2.1.q)).2

theorem pr_0 : TestData.Pr_0.all (prEntry F64.fast) = true := by decide +kernel
theorem pr_1 : TestData.Pr_1.all (prEntry F64.fast) = true := by decide +kernel
theorem pr_2 : TestData.Pr_2.all (prEntry F64.fast) = true := by decide +kernel
theorem pr_3 : TestData.Pr_3.all (prEntry F64.fast) = true := by decide +kernel
theorem pr_4 : TestData.Pr_4.all (prEntry F64.fast) = true := by decide +kernel
theorem pr_5 : TestData.Pr_5.all (prEntry F64.fast) = true := by decide +kernel
theorem pr_6 : TestData.Pr_6.all (prEntry F64.fast) = true := by decide +kernel
theorem pr_7 : TestData.Pr_7.all (prEntry F64.fast) = true := by decide +kernel
theorem pr_8 : TestData.Pr_8.all (prEntry F64.fast) = true := by decide +kernel
theorem pr_9 : TestData.Pr_9.all (prEntry F64.fast) = true := by decide +kernel

theorem pr_all : ∀ d ∈ TestData.PR00_DATA, prEntry F64.fast d = true := by
  rw [← List.all_eq_true]
  unfold TestData.PR00_DATA
  simp only [List.all_append, pr_0, pr_1, pr_2, pr_3, pr_4, pr_5, pr_6, pr_7, pr_8, pr_9, Bool.and_self]

/-- The comparisons of the time scales of one entry of `C2T00B_DATA`. -/
def c2tEntry (A : Arith F64) (d : Epv.Dec × Epv.Dec × Epv.Dec × Epv.Dec × Epv.Dec × Epv.Dec × Epv.Dec × Epv.Dec) : Bool :=
  cmp A (A.lit d.2.2.2.1.q) (@TDB.fromTT F64 A (A.lit d.1.q, A.lit d.2.1.q) (A.lit d.2.2.1.q)).1 &&
    cmp A (A.lit d.2.2.2.2.1.q) (@TDB.fromTT F64 A (A.lit d.1.q, A.lit d.2.1.q) (A.lit d.2.2.1.q)).2 &&
    cmp A (A.lit d.2.2.2.2.2.2.1.q) (@UT1.fromTT F64 A (A.lit d.1.q, A.lit d.2.1.q) (A.lit d.2.2.2.2.2.1.q)).1 &&
    cmp A (A.lit d.2.2.2.2.2.2.2.q) (@UT1.fromTT F64 A (A.lit d.1.q, A.lit d.2.1.q) (A.lit d.2.2.2.2.2.1.q)).2

theorem c2t_0 : TestData.C2t_0.all (c2tEntry F64.fast) = true := by decide +kernel
theorem c2t_1 : TestData.C2t_1.all (c2tEntry F64.fast) = true := by decide +kernel
theorem c2t_2 : TestData.C2t_2.all (c2tEntry F64.fast) = true := by decide +kernel
theorem c2t_3 : TestData.C2t_3.all (c2tEntry F64.fast) = true := by decide +kernel
theorem c2t_4 : TestData.C2t_4.all (c2tEntry F64.fast) = true := by decide +kernel
theorem c2t_5 : TestData.C2t_5.all (c2tEntry F64.fast) = true := by decide +kernel
theorem c2t_6 : TestData.C2t_6.all (c2tEntry F64.fast) = true := by decide +kernel
theorem c2t_7 : TestData.C2t_7.all (c2tEntry F64.fast) = true := by decide +kernel
theorem c2t_8 : TestData.C2t_8.all (c2tEntry F64.fast) = true := by decide +kernel
theorem c2t_9 : TestData.C2t_9.all (c2tEntry F64.fast) = true := by decide +kernel

theorem c2t_all : ∀ d ∈ TestData.C2T00B_DATA, c2tEntry F64.fast d = true := by
  rw [← List.all_eq_true]
  unfold TestData.C2T00B_DATA
  simp only [List.all_append, c2t_0, c2t_1, c2t_2, c2t_3, c2t_4, c2t_5, c2t_6, c2t_7, c2t_8, c2t_9, Bool.and_self]

end Verif
