import Mathlib.Data.Real.Basic

/-! # How far apart the rotations of the shipped grids are -/
namespace GConv.Spec

/-- the least angle between two different rotations of the shipped grid of `n` rotations, `n = 2, .., 24`, rounded down to
thousandths of a radian. -/
def leastAngles : List ℕ := [3140, 2640, 2812, 2429, 2118, 2030, 1756, 1904, 2014, 1894, 1812, 1735, 1739, 1539, 1596, 1640, 1682, 1527,
  1603, 1638, 1521, 1515, 1488]

noncomputable def leastAngle (n : ℕ) : ℝ := (leastAngles.getD (n - 2) 0 : ℝ) / 1000

end GConv.Spec
