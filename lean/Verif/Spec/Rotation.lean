import Mathlib.Analysis.SpecialFunctions.Trigonometric.Basic

import Mathlib.LinearAlgebra.Matrix.Notation

/-!
# Elementary rotations of the axes (IERS Conventions 2003, chapter 5)

`R1 θ`, `R2 θ`, `R3 θ` rotate the axes by `θ` about the first, second, third axis.
-/

namespace Verif.Spec

noncomputable def R1 (θ : ℝ) : Matrix (Fin 3) (Fin 3) ℝ :=
  !![1, 0, 0; 0, Real.cos θ, Real.sin θ; 0, -Real.sin θ, Real.cos θ]

noncomputable def R2 (θ : ℝ) : Matrix (Fin 3) (Fin 3) ℝ :=
  !![Real.cos θ, 0, -Real.sin θ; 0, 1, 0; Real.sin θ, 0, Real.cos θ]

noncomputable def R3 (θ : ℝ) : Matrix (Fin 3) (Fin 3) ℝ :=
  !![Real.cos θ, Real.sin θ, 0; -Real.sin θ, Real.cos θ, 0; 0, 0, 1]

end Verif.Spec
