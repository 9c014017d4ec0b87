import Verif.Model.Interpolation

/-! # Model of `gconv/geometry/groups/so2.py`

An SO(2) element is an angle (the trailing axis of extent one is folded). -/

namespace GConv.SO2

open Real Tensor

/-- `angle_to_matrix`, so2.py:9-29 (entrywise assignments 24-27). -/
noncomputable def angleToMatrix (R : ℝ) : Matrix (Fin 2) (Fin 2) ℝ :=
  !![cos R, -sin R; sin R, cos R]

/-- `angle_to_euclid`, so2.py:32-47. -/
noncomputable def angleToEuclid (R : ℝ) : Fin 2 → ℝ := ![cos R, sin R]

/-- `uniform_grid`, so2.py:50-61: `linspace(0, 2π, size+1)[:-1]`. -/
noncomputable def uniformGrid (size : ℕ) : List ℝ := (linspace 0 (2 * π) (size + 1)).dropLast

/-- `random_grid`, so2.py:64-75; `draws` is the outcome of `torch.rand(size)`. -/
noncomputable def randomGrid (draws : List ℝ) : List ℝ := draws.map (fun u => 2 * π * u)

/-- `inverse_matrix`, so2.py:78-88. -/
def inverseMatrix (R : Matrix (Fin 2) (Fin 2) ℝ) : Matrix (Fin 2) (Fin 2) ℝ := R.transpose

/-- `inverse_angle`, so2.py:91-101. -/
def inverseAngle (R : ℝ) : ℝ := -R

/-- `left_apply_angle`, so2.py:104-116. -/
noncomputable def leftApplyAngle (R1 R2 : ℝ) : ℝ := pyMod (R1 + R2) (2 * π)

/-- `left_apply_to_angle`, so2.py:119-131: `(R1[:, None] + R2) % (2π)`. -/
noncomputable def leftApplyToAngle (R1 R2 : Tensor ℝ) : Tensor ℝ :=
  pairwise (fun a b => pyMod (a + b) (2 * π)) R1 R2

/-- `left_apply_matrix_to_R2`, so2.py:149-161: `(R[:, None, None] @ grid[..., None])`. -/
def leftApplyMatrixToR2 (R : Tensor (Matrix (Fin 2) (Fin 2) ℝ)) (grid : Tensor (Fin 2 → ℝ)) :
    Tensor (Fin 2 → ℝ) :=
  pairwise (fun M v => M.mulVec v) R grid

/-- `left_apply_angle_to_R2`, so2.py:134-146. -/
noncomputable def leftApplyAngleToR2 (R : Tensor ℝ) (grid : Tensor (Fin 2 → ℝ)) :
    Tensor (Fin 2 → ℝ) :=
  leftApplyMatrixToR2 (R.map angleToMatrix) grid

/-- `geodesic_distance_euclid`, so2.py:164-176. -/
noncomputable def geodesicDistanceEuclid (R1 R2 : Fin 2 → ℝ) (eps : ℝ) : ℝ :=
  arccos (clamp (∑ i, R1 i * R2 i) (-1 + eps) (1 - eps))

/-- `geodesic_distance`, so2.py:179-191. -/
noncomputable def geodesicDistance (R1 R2 : ℝ) (eps : ℝ) : ℝ :=
  geodesicDistanceEuclid (angleToEuclid R1) (angleToEuclid R2) eps

/-- default `eps = 1e-12` of `geodesic_distance`, so2.py:179. -/
noncomputable def defaultEps : ℝ := 1e-12

/-- `grid_sample`, so2.py:194-230. -/
noncomputable def gridSample (grid : Tensor ℝ) (signal : Tensor ℝ) (signalGrid : Tensor ℝ)
    (mode : String) (width : ℝ) : Except PyErr (Tensor ℝ) :=
  if mode = "rbf" then
    Interp.interpolateRBF (fun a b => geodesicDistance a b defaultEps) Interp.RBFgauss width
      grid signalGrid signal
  else if mode = "nearest" then
    Interp.interpolateNN (fun a b => geodesicDistance a b defaultEps) grid signalGrid signal
  else .error .valueError

/-- `nearest_neighbour_distance`, so2.py:233-240: the minimum over the row of distances from
`grid[i]` to every grid element (the element itself included); reducing an empty row raises
IndexError.  Entry `i` of the returned tensor. -/
noncomputable def nearestNeighbourDistance (grid : List ℝ) : Except PyErr (List ℝ) :=
  if grid = [] then .error .indexError
  else .ok (grid.map fun a =>
    (grid.map fun b => geodesicDistance a b defaultEps).foldl min
      (geodesicDistance a (grid.headD 0) defaultEps))

end GConv.SO2
