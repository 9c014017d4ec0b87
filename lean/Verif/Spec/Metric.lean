import Mathlib.Analysis.InnerProductSpace.PiL2
import Mathlib.Geometry.Euclidean.Angle.Unoriented.Basic

/-! # Angles between vectors, in Mathlib's sense -/

namespace GConv

/-- the angle in `[0, π]` between two vectors given by coordinates. -/
noncomputable def angleBetween {n : ℕ} (x y : Fin n → ℝ) : ℝ :=
  InnerProductGeometry.angle (WithLp.toLp 2 x : EuclideanSpace ℝ (Fin n)) (WithLp.toLp 2 y)

end GConv
