import Mathlib.LinearAlgebra.Matrix.NonsingularInverse
import Mathlib.Data.Real.Basic

/-! # Specifications shared by several properties (independent of the model) -/

namespace GConv.Spec

/-- A rotation matrix: orthogonal with determinant one. -/
def IsRotation {n : ℕ} (M : Matrix (Fin n) (Fin n) ℝ) : Prop :=
  M.transpose * M = 1 ∧ M.det = 1

/-- Euclidean inner product of coordinate vectors. -/
def dot {n : ℕ} (v w : Fin n → ℝ) : ℝ := ∑ i, v i * w i

/-- Two numbers are equal up to an integer multiple of `m`. -/
def EqMod (m a b : ℝ) : Prop := ∃ k : ℤ, a = b + k * m

end GConv.Spec
