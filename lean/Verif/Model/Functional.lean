import Verif.Torch.Spatial

/-! # Model of `gconv/gnn/functional/grid.py` and `gconv/gnn/functional/mask.py` -/

namespace GConv.Functional

open Tensor

/-- entry of `torch.meshgrid(x, x, x, indexing="ij")[axis]` at `idx`: `x[idx[axis]]`. -/
def meshIJ (x : ℕ → ℝ) (axis : ℕ) (idx : List ℕ) : ℝ := x (idx.getD axis 0)

/-- entry of `torch.meshgrid((x, x), indexing="xy")[axis]`: the first two axes are swapped. -/
def meshXY (x : ℕ → ℝ) (axis : ℕ) (idx : List ℕ) : ℝ := x (idx.getD (1 - axis) 0)

/-- `create_grid_R3`, functional/grid.py:8-23: `stack((Z, Y, X), -1)` of `X, Y, Z = meshgrid(.., "ij")`. -/
noncomputable def createGridR3 (size : ℕ) : Tensor (Fin 3 → ℝ) :=
  let x := linspaceAt (-1) 1 size
  ⟨[size, size, size], fun idx => ![meshIJ x 2 idx, meshIJ x 1 idx, meshIJ x 0 idx]⟩

/-- `create_grid_R2`, functional/grid.py:26-41: `stack((Y, X), -1)` of `X, Y = meshgrid(.., "xy")`. -/
noncomputable def createGridR2 (size : ℕ) : Tensor (Fin 2 → ℝ) :=
  let x := linspaceAt (-1) 1 size
  ⟨[size, size], fun idx => ![meshXY x 1 idx, meshXY x 0 idx]⟩

/-- `create_spherical_mask_R3`, functional/mask.py:7-20. -/
noncomputable def createSphericalMaskR3 (size : ℕ) : Tensor ℝ :=
  (createGridR3 size).map fun v => if vnorm v < 1.1 then 1 else 0

/-- `create_spherical_mask_R2`, functional/mask.py:23-36. -/
noncomputable def createSphericalMaskR2 (size : ℕ) : Tensor ℝ :=
  (createGridR2 size).map fun v => if vnorm v < 1.1 then 1 else 0

end GConv.Functional
