import Verif.Torch.Tensor

/-! # Model of `gconv/gnn/kernels/kernel.py`

A grid of group elements is a `Tensor G` of shape `[n]` (the trailing axes of one element are folded
into `G`), a spatial grid a tensor with entries in `ℝ^d`.  Parameters (`self.weight`, `self.weight_H`)
are passed explicitly. -/

namespace GConv

open Tensor

/-- `GroupKernel`, kernel.py:20-122: the attributes stored by `__init__` (59-112).  The callables that
every subclass needs are total functions here; calling a missing one (`None`) is a TypeError in Python
and not modelled.  The keyword arguments of `sample_H` and `sample_Rn` are folded into the callables. -/
structure GroupKernel (G : Type) (d : ℕ) where
  inC : ℕ
  outC : ℕ
  kernelSize : List ℕ
  groupKernelSize : List ℕ
  groups : ℕ
  gridH : Tensor G
  gridRn : Tensor (Fin d → ℝ)
  mask : Option (Tensor ℝ)
  detH : Option (Tensor G → Tensor ℝ)
  inverseH : Tensor G → Tensor G
  leftApplyToH : Tensor G → Tensor G → Tensor G
  leftApplyToRn : Tensor G → Tensor (Fin d → ℝ) → Tensor (Fin d → ℝ)
  sampleH : Tensor G → Tensor ℝ → Tensor G → Except PyErr (Tensor ℝ)
  sampleRn : Tensor ℝ → Tensor (Fin d → ℝ) → Except PyErr (Tensor ℝ)

namespace GroupKernel
variable {G : Type} {d : ℕ}

/-- `self._group_kernel_dim = sum(group_kernel_size)`, kernel.py:94. -/
def groupKernelDim (K : GroupKernel G d) : ℕ := K.groupKernelSize.sum

/-- `if self.mask is not None: weight = self.mask * weight`, kernel.py:189-190, 299-300, 478-479. -/
noncomputable def applyMask (K : GroupKernel G d) (w : Tensor ℝ) : Except PyErr (Tensor ℝ) :=
  match K.mask with
  | none => .ok w
  | some m => bzip (· * ·) m w

/-- `if self.det_H is not None: weight = weight / self.det_H(H).view(-1, 1, *self.weight_dims)`,
kernel.py:192-193, 302-303, 481-482; `nd = len(self.weight_dims)`. (Division by a zero determinant,
which gives inf in torch, does not occur for group elements.) -/
noncomputable def divDet (K : GroupKernel G d) (w : Tensor ℝ) (H : Tensor G) (nd : ℕ) :
    Except PyErr (Tensor ℝ) :=
  match K.detH with
  | none => .ok w
  | some det => do
    let dd ← (det H).viewInfer [] (1 :: List.replicate nd 1)
    bzip (· / ·) w dd

/-- `GLiftingKernel.forward`, kernel.py:174-195; `weight` is `self.weight` of shape
`(out_channels, in_channels // groups, *kernel_size)` (162-164), `weight_dims` line 167. -/
noncomputable def liftingForward (K : GroupKernel G d) (weight : Tensor ℝ) (H : Tensor G) :
    Except PyErr (Tensor ℝ) := do
  let numH := H.shape.headD 0
  let hProduct := K.leftApplyToRn (K.inverseH H) K.gridRn
  let w ← K.sampleRn (weight.repeatInterleave0 numH) (hProduct.repeat0 K.outC)
  let w ← w.view ([K.outC, numH, K.inC / K.groups] ++ K.kernelSize)
  let w ← K.applyMask w
  K.divDet w H (weight.shape.length - 2)

/-- the group weights of `GSeparableKernel.forward` (kernel.py:263-286, `dims = weight_dims`) and of
`GSubgroupKernel.forward` (kernel.py:354-375, `dims = kernel_size`); `weightH` has shape
`(group_kernel_dim, out_channels, in_channels // groups)`. -/
noncomputable def subgroupWeights (K : GroupKernel G d) (weightH : Tensor ℝ) (inH outH : Tensor G)
    (dims : List ℕ) : Except PyErr (Tensor ℝ) := do
  let numIn := inH.shape.headD 0
  let numOut := outH.shape.headD 0
  let outInv := K.inverseH outH
  let hProductH := K.leftApplyToH outInv inH
  let q ← hProductH.viewInfer [] []
  let sig ← weightH.viewInfer [K.groupKernelDim] []
  let w ← K.sampleH q sig K.gridH
  let w ← w.view ([numIn, numOut, K.inC / K.groups, K.outC] ++ dims)
  return (w.transpose 0 3).transpose 1 3

/-- `GSubgroupKernel.forward`, kernel.py:350-377. -/
noncomputable def subgroupForward (K : GroupKernel G d) (weight : Tensor ℝ) (inH outH : Tensor G) :
    Except PyErr (Tensor ℝ) :=
  K.subgroupWeights weight inH outH K.kernelSize

/-- `GSeparableKernel.forward`, kernel.py:257-305; `weight` has shape `(out_channels, 1, *kernel_size)`
(246), `weight_dims = (1,) * len(kernel_size)` (249). -/
noncomputable def separableForward (K : GroupKernel G d) (weightH weight : Tensor ℝ)
    (inH outH : Tensor G) : Except PyErr (Tensor ℝ × Tensor ℝ) := do
  let numOut := outH.shape.headD 0
  let outInv := K.inverseH outH
  let hProductRn := K.leftApplyToRn outInv K.gridRn
  let wH ← K.subgroupWeights weightH inH outH (List.replicate K.kernelSize.length 1)
  let w ← K.sampleRn (weight.repeatInterleave0 numOut) (hProductRn.repeat0 K.outC)
  let w ← w.view ([K.outC, numOut, 1] ++ K.kernelSize)
  let w ← K.applyMask w
  let w ← K.divDet w outH K.kernelSize.length
  return (wH, w)

/-- `GKernel.forward`, kernel.py:439-484; `weight` has shape
`(group_kernel_dim, out_channels, in_channels // groups, *kernel_size)` (423-430), `weight_dims`
line 433. -/
noncomputable def forward (K : GroupKernel G d) (weight : Tensor ℝ) (inH outH : Tensor G) :
    Except PyErr (Tensor ℝ) := do
  let numIn := inH.shape.headD 0
  let numOut := outH.shape.headD 0
  let outInv := K.inverseH outH
  let hProductH := K.leftApplyToH outInv inH
  let hProductRn := K.leftApplyToRn outInv K.gridRn
  let q ← hProductH.viewInfer [] []
  let sig ← weight.viewInfer [K.groupKernelDim] []
  let w ← K.sampleH q sig K.gridH
  let w ← w.view ([numOut * numIn, (K.inC / K.groups) * K.outC] ++ K.kernelSize)
  let w ← K.sampleRn w (hProductRn.repeatInterleave0 numIn)
  let w ← w.view ([numOut, numIn, K.inC / K.groups, K.outC] ++ K.kernelSize)
  let w := (w.transpose 0 3).transpose 1 3
  let w ← K.applyMask w
  K.divDet w outH (weight.shape.length - 2)

end GroupKernel
end GConv
