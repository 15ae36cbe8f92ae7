import Verif.Model.EllipsoidAccess
import Verif.Props.Ellipsoid

/-!
# C45: the ellipsoid of a converter
-/

namespace Verif
open Arith F64

/-- **C45.** In any arithmetic, so bit for bit in binary64, NaN included, `ellipsoid` returns what `new` was given, and a converter
made anew from it is the same. -/
theorem C45_ellipsoid {α : Type} [Arith α] (el : Ellipsoid α) (c : EllipsoidConverter α) (h : EllipsoidConverter.new el = .ok c) :
    c.ellipsoid = el ∧ EllipsoidConverter.new c.ellipsoid = .ok c := by
  have e : c.ellipsoid = el := by
    unfold EllipsoidConverter.new at h
    simp only at h
    split_ifs at h
    cases h
    rfl
  exact ⟨e, e ▸ h⟩

/-- WGS84, and a radius that is no number. -/
example : (∃ c, EllipsoidConverter.new (WGS84 : Ellipsoid F64) = .ok c) ∧ ∃ c, EllipsoidConverter.new (⟨.nan, lit 0.003⟩ : Ellipsoid F64) = .ok c := by
  have k : ∀ x : Except EllipsoidError (EllipsoidConverter F64), isOk x = true → ∃ c, x = .ok c := by
    rintro (e | c) h
    exacts [absurd h (by simp [isOk]), ⟨c, rfl⟩]
  exact ⟨k _ (by decide +kernel), k _ (by decide +kernel)⟩

end Verif
