import Verif.Spec.Basic
import Mathlib.Algebra.Quaternion
import Mathlib.Analysis.SpecialFunctions.Trigonometric.Basic
import Mathlib.LinearAlgebra.Matrix.Notation

/-! # Specifications for rotations of space -/

namespace GConv.Spec

open Real

/-- the Mathlib quaternion with components `[w, x, y, z]`. -/
def toH (q : Fin 4 → ℝ) : Quaternion ℝ := ⟨q 0, q 1, q 2, q 3⟩

/-- the components of a Mathlib quaternion. -/
def ofH (q : Quaternion ℝ) : Fin 4 → ℝ := ![q.re, q.imI, q.imJ, q.imK]

/-- Hamilton product of component vectors. -/
noncomputable def hmul (p q : Fin 4 → ℝ) : Fin 4 → ℝ := ofH (toH p * toH q)

/-- unit quaternion. -/
def IsUnitQuat (q : Fin 4 → ℝ) : Prop := dot q q = 1

/-- The rotation by angle `t` about the unit axis `u` (Rodrigues' formula):
`cos t · 1 + sin t · [u]ₓ + (1 - cos t) · u uᵀ`. -/
noncomputable def rodrigues (u : Fin 3 → ℝ) (t : ℝ) : Matrix (Fin 3) (Fin 3) ℝ :=
  cos t • (1 : Matrix (Fin 3) (Fin 3) ℝ)
  + sin t • !![0, -u 2, u 1; u 2, 0, -u 0; -u 1, u 0, 0]
  + (1 - cos t) • Matrix.of fun i j => u i * u j

end GConv.Spec
