import Verif.Torch.NN

/-! # Model of `gconv/gnn/modules/pooling.py` -/

namespace GConv.Pooling

open Tensor

variable {G : Type}

/-- what a pooling module returns: a tensor, or the pair `(values, indices)` of `torch.max`. -/
inductive Result
  | tensor (t : Tensor ℝ)
  | pair (values : Tensor ℝ) (indices : Tensor ℕ)

/-- `return super().forward(x.flatten(1, 2)).view(*x.shape[:3]), H`: `GMaxSpatialPool2d/3d` (pooling.py:7-22),
`GAvgSpatialPool2d/3d` (43-58), `GAdaptiveMaxSpatialPool2d/3d` (79-94), `GAdaptiveAvgSpatialPool2d/3d`
(97-112); `p` is the base class with its arguments (`return_indices=True` is not modelled). -/
noncomputable def spatial (p : F.Pool) (x : Tensor ℝ) (H : Tensor G) : Except PyErr (Tensor ℝ × Tensor G) := do
  let y ← x.flatten 1 2
  let y ← p.apply y
  let y ← y.view (x.shape.take 3)
  return (y, H)

/-- `GMaxGroupPool.forward`: `x.max(dim=2)`, pooling.py:25-31. -/
noncomputable def maxGroup (x : Tensor ℝ) : Except PyErr Result := do
  let y ← x.maxDim 2
  return .pair y.1 y.2

/-- `GMaxGlobalPool.forward`: `x.flatten(2, -1).max(-1, keepdim=True)`, pooling.py:34-40 (the flattened tensor
has three axes). -/
noncomputable def maxGlobal (x : Tensor ℝ) : Except PyErr Result := do
  let y ← x.flattenFrom 2
  let y ← y.maxDim 2
  return .pair y.1.keepLast y.2.keepLast

/-- `GAvgGroupPool.forward`: `x.mean(dim=2)`, pooling.py:61-67. -/
noncomputable def avgGroup (x : Tensor ℝ) : Except PyErr Result := do
  let y ← x.meanDim 2
  return .tensor y

/-- `GAvgGlobalPool.forward`: `x.flatten(2, -1).mean(-1, keepdim=True)`, pooling.py:70-76. -/
noncomputable def avgGlobal (x : Tensor ℝ) : Except PyErr Result := do
  let y ← x.flattenFrom 2
  let y ← y.meanDim 2
  return .tensor y.keepLast

end GConv.Pooling
