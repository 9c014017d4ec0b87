import Verif.Model.Kernel
import Verif.Model.Functional
import Verif.Model.O3

/-! # Model of the premade kernels: `gconv/gnn/kernels/kernel_sen/*.py`, `kernel_en/*.py`

Every constructor computes the arguments of the base class `GroupKernel` (`Model/Kernel.lean`).
`grid_H` tensors are folded: one entry is one group element. -/

namespace GConv

open Tensor

/-- constructor arguments shared by the premade kernels.  `groupKernelSize` of the E(n) kernels is a
pair (an integer `n` means `(n, n)`, see `sizePair`); the sampling mode of the group is not an argument
of the lifting kernels. -/
structure KernelArgs (G S : Type) where
  inC : ℕ
  outC : ℕ
  kernelSize : ℕ
  groupKernelSize : S
  groups : ℕ := 1
  groupMode : String := "rbf"
  rotWidth : ℝ := 0
  refWidth : ℝ := 0
  spatialMode : String := "bilinear"
  spatialPad : String := "border"
  mask : Bool := true
  gridH : Option (Tensor G) := none

/-- elements of a grid as a list. -/
def elems {G : Type} (t : Tensor G) : List G := (List.range (t.shape.headD 0)).map fun i => t.get [i]

/-- `l.mean()`. -/
noncomputable def mean (l : List ℝ) : ℝ := l.sum / l.length

/-- `if not width: width = 0.8 * nearest_neighbour_distance(grid).mean()`, e.g. kernel_se3.py:121-122;
`nn` is the outcome of the call. -/
noncomputable def defaultWidth (width : ℝ) (nn : Except PyErr (List ℝ)) : Except PyErr ℝ :=
  if width = 0 then do
    let l ← nn
    return 0.8 * mean l
  else return width

/-- `in_channels // groups` in the shape of the parameters (kernel.py:163, 243, 343, 427) raises
ZeroDivisionError for `groups = 0`. -/
def checkGroups {α : Type} (groups : ℕ) (k : α) : Except PyErr α :=
  if groups = 0 then .error .zeroDivisionError else .ok k

/-- an absent callable of the lifting kernels (`None`); it is never called. -/
def noSampler {G : Type} : Tensor G → Tensor ℝ → Tensor G → Except PyErr (Tensor ℝ) :=
  fun _ _ _ => .error .typeError

/-! ## SE(2) -/
namespace KernelSE2

/-- `if grid_H is None: grid_H = so2.uniform_grid(group_kernel_size)`, kernel_se2.py:40-41. -/
noncomputable def grid (a : KernelArgs ℝ ℕ) : Tensor ℝ :=
  a.gridH.getD (Tensor.ofList (SO2.uniformGrid a.groupKernelSize))

/-- the base class arguments common to the three SE(2) kernels. The argument `mask` is overwritten
(kernel_se2.py:45, 120, 193), so `a.mask` does not occur. -/
noncomputable def base (a : KernelArgs ℝ ℕ)
    (sampleH : Tensor ℝ → Tensor ℝ → Tensor ℝ → Except PyErr (Tensor ℝ)) : GroupKernel ℝ 2 where
  inC := a.inC
  outC := a.outC
  kernelSize := [a.kernelSize, a.kernelSize]
  groupKernelSize := [(grid a).shape.headD 0]
  groups := a.groups
  gridH := grid a
  gridRn := Functional.createGridR2 a.kernelSize
  mask := some (Functional.createSphericalMaskR2 a.kernelSize)
  detH := none
  inverseH := fun H => H.map SO2.inverseAngle
  leftApplyToH := SO2.leftApplyToAngle
  leftApplyToRn := SO2.leftApplyAngleToR2
  sampleH := sampleH
  sampleRn := F.gridSample a.spatialMode a.spatialPad

/-- `GLiftingKernelSE2.__init__`, kernel_se2.py:9-65. -/
noncomputable def lifting (a : KernelArgs ℝ ℕ) : Except PyErr (GroupKernel ℝ 2) :=
  checkGroups a.groups (base a noSampler)

/-- `GSeparableKernelSE2.__init__` (kernel_se2.py:68-138) and `GKernelSE2.__init__` (141-211), which
differ only in the base class. -/
noncomputable def full (a : KernelArgs ℝ ℕ) : Except PyErr (GroupKernel ℝ 2) := do
  let width ← defaultWidth a.rotWidth (SO2.nearestNeighbourDistance (elems (grid a)))
  checkGroups a.groups (base a fun q sig g => SO2.gridSample q sig g a.groupMode width)

end KernelSE2

/-! ## SE(3) -/
namespace KernelSE3

open SO3

/-- a tensor of shape `(n, 3, 3)` as a grid of matrices.  Two tensors that are not lists of matrices
reach the kernels (nothing checks them): the shipped `"matrix"` grid of size 1 is a single matrix of shape
`(3, 3)`, it is folded to shape `[]`; `so3.uniform_grid(0)` has shape `(0,)`, it is folded to the empty
tensor of shape `[0, 0]` (which, like `(0,)`, is not a list of matrices and has no elements).
`so3.uniform_grid` returns no other shape. -/
def foldMat (t : Tensor ℝ) : Except PyErr (Tensor Mat3) :=
  match t.shape with
  | [n, 3, 3] => .ok ⟨[n], fun idx => Matrix.of fun i j => t.get [idx.headD 0, i, j]⟩
  | [3, 3] => .ok ⟨[], fun _ => Matrix.of fun i j => t.get [i, j]⟩
  | [0] => .ok ⟨[0, 0], fun _ => 0⟩
  | _ => .error .runtimeError

/-- `if grid_H is None: grid_H = so3.uniform_grid(group_kernel_size, "matrix")`, kernel_se3.py:50-51;
`s` is the grid cache and `opt` the optimised Euler grid used for sizes that are not cached. -/
noncomputable def grid (s : GridCache.Store (Tensor ℝ)) (opt : List Euler) (a : KernelArgs Mat3 ℕ) :
    Except PyErr (Tensor Mat3) :=
  match a.gridH with
  | some g => .ok g
  | none => do
    let t ← (SO3.uniformGrid s a.groupKernelSize "matrix" opt false).1
    foldMat t

/-- the base class arguments common to the three SE(3) kernels.  `group_kernel_size` is
`(grid_H.shape[0],)`, which is 3 for a single matrix of shape `(3, 3)`. -/
noncomputable def base (a : KernelArgs Mat3 ℕ) (g : Tensor Mat3)
    (sampleH : Tensor Mat3 → Tensor ℝ → Tensor Mat3 → Except PyErr (Tensor ℝ)) : GroupKernel Mat3 3 where
  inC := a.inC
  outC := a.outC
  kernelSize := [a.kernelSize, a.kernelSize, a.kernelSize]
  groupKernelSize := [g.shape.headD 3]
  groups := a.groups
  gridH := g
  gridRn := Functional.createGridR3 a.kernelSize
  mask := if a.mask then some (Functional.createSphericalMaskR3 a.kernelSize) else none
  detH := none
  inverseH := fun H => H.map matrixInverse
  leftApplyToH := leftApplyToMatrix
  leftApplyToRn := leftApplyToR3
  sampleH := sampleH
  sampleRn := F.gridSample a.spatialMode a.spatialPad

/-- `GLiftingKernelSE3.__init__`, kernel_se3.py:19-75. -/
noncomputable def lifting (s : GridCache.Store (Tensor ℝ)) (opt : List Euler) (a : KernelArgs Mat3 ℕ) :
    Except PyErr (GroupKernel Mat3 3) := do
  let g ← grid s opt a
  checkGroups a.groups (base a g noSampler)

/-- the three rows of a matrix.  `so3.nearest_neighbour_distance` and `so3.geodesic_distance` use the rows
of a `(3, 3)` tensor (`q.ndim == 2`, so3.py:667) as they use quaternions; the fourth component 0 added here
contributes nothing to the inner products. -/
def matrixRows (M : Mat3) : List Quat := [![M 0 0, M 0 1, M 0 2, 0], ![M 1 0, M 1 1, M 1 2, 0], ![M 2 0, M 2 1, M 2 2, 0]]

/-- `so3.nearest_neighbour_distance(grid_H)`, kernel_se3.py:122, 198. -/
noncomputable def nearest (g : Tensor Mat3) : Except PyErr (List ℝ) :=
  if g.shape = [] then nearestNeighbourDistance (matrixRows (g.get []))
  else nearestNeighbourDistanceMatrix (elems g)

/-- `so3.grid_sample`, so3.py:673-716, with the reference grid of an SE(3) kernel.  A single matrix of
shape `(3, 3)` is not converted to quaternions (so3.py:698): the product of its rows of three components
with the four components of the queries (so3.py:652) raises RuntimeError.  Stated for queries with a grid
axis; `in_H` given as a bare `(3, 3)` tensor is not modelled. -/
noncomputable def sampler (mode : String) (width : ℝ) (q : Tensor Mat3) (sig : Tensor ℝ) (g : Tensor Mat3) :
    Except PyErr (Tensor ℝ) :=
  if g.shape = [] ∧ (mode = "nearest" ∨ mode = "rbf") then .error .runtimeError
  else SO3.gridSample q sig g mode width

/-- `GSeparableKernelSE3.__init__` (kernel_se3.py:78-151) and `GKernelSE3.__init__` (154-227). -/
noncomputable def full (s : GridCache.Store (Tensor ℝ)) (opt : List Euler) (a : KernelArgs Mat3 ℕ) :
    Except PyErr (GroupKernel Mat3 3) := do
  let g ← grid s opt a
  let width ← defaultWidth a.rotWidth (nearest g)
  checkGroups a.groups (base a g (sampler a.groupMode width))

end KernelSE3

/-- `group_kernel_size` of the E(n) kernels: an integer or a pair. -/
inductive SizeArg
  | int (n : ℕ)
  | pair (n m : ℕ)

/-- `if isinstance(group_kernel_size, int): group_kernel_size = (n, n)`, kernel_e3.py:46-47. -/
def sizePair : SizeArg → ℕ × ℕ
  | .int n => (n, n)
  | .pair n m => (n, m)

/-! ## E(2) -/
namespace KernelE2

/-- `if grid_H is None: grid_H = o2.uniform_grid(group_kernel_size)`, kernel_e2.py:49-50. -/
noncomputable def grid (a : KernelArgs O2.Elt SizeArg) : Tensor O2.Elt :=
  a.gridH.getD (Tensor.ofList (O2.uniformGrid (sizePair a.groupKernelSize).1 (sizePair a.groupKernelSize).2))

/-- the base class arguments common to the three E(2) kernels. -/
noncomputable def base (a : KernelArgs O2.Elt SizeArg)
    (sampleH : Tensor O2.Elt → Tensor ℝ → Tensor O2.Elt → Except PyErr (Tensor ℝ)) :
    GroupKernel O2.Elt 2 where
  inC := a.inC
  outC := a.outC
  kernelSize := [a.kernelSize, a.kernelSize]
  groupKernelSize := [(sizePair a.groupKernelSize).1, (sizePair a.groupKernelSize).2]
  groups := a.groups
  gridH := grid a
  gridRn := Functional.createGridR2 a.kernelSize
  mask := if a.mask then some (Functional.createSphericalMaskR2 a.kernelSize) else none
  detH := some fun H => H.map O2.det
  inverseH := fun H => H.map O2.inverse
  leftApplyToH := O2.leftApplyToAngle
  leftApplyToRn := O2.leftApplyToR2
  sampleH := sampleH
  sampleRn := F.gridSample a.spatialMode a.spatialPad

/-- `GLiftingKernelE2.__init__`, kernel_e2.py:13-74. -/
noncomputable def lifting (a : KernelArgs O2.Elt SizeArg) : Except PyErr (GroupKernel O2.Elt 2) :=
  checkGroups a.groups (base a noSampler)

/-- `GSeparableKernelE2.__init__` (kernel_e2.py:77-172) and `GKernelE2.__init__` (175-270): default
widths from the angles of `grid_H[:n]` and `grid_H[n:]`. -/
noncomputable def full (a : KernelArgs O2.Elt SizeArg) : Except PyErr (GroupKernel O2.Elt 2) := do
  let n := (sizePair a.groupKernelSize).1
  let m := (sizePair a.groupKernelSize).2
  let wr ← defaultWidth a.rotWidth
    (SO2.nearestNeighbourDistance (((elems (grid a)).take n).map Prod.snd))
  let wf ← defaultWidth a.refWidth
    (SO2.nearestNeighbourDistance (((elems (grid a)).drop n).map Prod.snd))
  checkGroups a.groups (base a fun q sig g => O2.gridSample q sig g n m a.groupMode wr wf)

end KernelE2

/-! ## E(3) -/
namespace KernelE3

open SO3

/-- a tensor of shape `(n, 10)` as a grid of O(3) elements. -/
def foldElt (t : Tensor ℝ) : Except PyErr (Tensor O3.Elt) :=
  match t.shape with
  | [n, 10] => .ok ⟨[n], fun idx k => t.get [idx.headD 0, k]⟩
  | _ => .error .runtimeError

/-- `if grid_H is None: grid_H = o3.uniform_grid(group_kernel_size)`, kernel_e3.py:49-50. -/
noncomputable def grid (s : GridCache.Store (Tensor ℝ)) (opt1 opt2 : List Euler)
    (a : KernelArgs O3.Elt SizeArg) : Except PyErr (Tensor O3.Elt) :=
  match a.gridH with
  | some g => .ok g
  | none => do
    let t ← O3.uniformGrid s (sizePair a.groupKernelSize).1 (sizePair a.groupKernelSize).2 opt1 opt2 false
    foldElt t

/-- `so3.geodesic_distance` (so3.py:652) on rows of ten components. -/
noncomputable def rowDistance (x y : O3.Elt) (eps : ℝ) : ℝ :=
  Real.arccos (clamp |∑ i, x i * y i| (-1 + eps) (1 - eps))

/-- `so3.nearest_neighbour_distance(grid_H[..])` as called by kernel_e3.py:126-136, 220-230: a grid of
O(3) elements has two axes, so the branch `q.ndim == 3` (so3.py:667) is not taken and the rows of ten
components are used as if they were quaternions. -/
noncomputable def rowNearestNeighbour (q : List O3.Elt) : Except PyErr (List ℝ) :=
  if q.length < 2 then .error .indexError
  else .ok (q.map fun a => (sortL (q.map fun b => rowDistance a b defaultEps)).getD 1 0)

/-- the base class arguments common to the three E(3) kernels. -/
noncomputable def base (a : KernelArgs O3.Elt SizeArg) (g : Tensor O3.Elt)
    (sampleH : Tensor O3.Elt → Tensor ℝ → Tensor O3.Elt → Except PyErr (Tensor ℝ)) :
    GroupKernel O3.Elt 3 where
  inC := a.inC
  outC := a.outC
  kernelSize := [a.kernelSize, a.kernelSize, a.kernelSize]
  groupKernelSize := [(sizePair a.groupKernelSize).1, (sizePair a.groupKernelSize).2]
  groups := a.groups
  gridH := g
  gridRn := Functional.createGridR3 a.kernelSize
  mask := if a.mask then some (Functional.createSphericalMaskR3 a.kernelSize) else none
  detH := some fun H => H.map O3.det
  inverseH := fun H => H.map O3.inverse
  leftApplyToH := O3.leftApplyToO3
  leftApplyToRn := O3.leftApplyToR3
  sampleH := sampleH
  sampleRn := F.gridSample a.spatialMode a.spatialPad

/-- `GLiftingKernelE3.__init__`, kernel_e3.py:13-74. -/
noncomputable def lifting (s : GridCache.Store (Tensor ℝ)) (opt1 opt2 : List Euler)
    (a : KernelArgs O3.Elt SizeArg) : Except PyErr (GroupKernel O3.Elt 3) := do
  let g ← grid s opt1 opt2 a
  checkGroups a.groups (base a g noSampler)

/-- `GSeparableKernelE3.__init__` (kernel_e3.py:77-168) and `GKernelE3.__init__` (171-262). -/
noncomputable def full (s : GridCache.Store (Tensor ℝ)) (opt1 opt2 : List Euler)
    (a : KernelArgs O3.Elt SizeArg) : Except PyErr (GroupKernel O3.Elt 3) := do
  let n := (sizePair a.groupKernelSize).1
  let m := (sizePair a.groupKernelSize).2
  let g ← grid s opt1 opt2 a
  let wr ← defaultWidth a.rotWidth (rowNearestNeighbour ((elems g).take n))
  let wf ← defaultWidth a.refWidth (rowNearestNeighbour ((elems g).drop n))
  checkGroups a.groups (base a g fun q sig g => O3.gridSample q sig g n m a.groupMode wr wf)

end KernelE3

/-! ## SO(3) -/
namespace KernelSO3

open SO3

/-- `GSubgroupKernelSO3.__init__`, kernel_so3.py:16-64, for input and output grids of matrices.  The
reference grid consists of quaternions (`so3.uniform_grid(size=..)`, line 46, or given); since its entry
type differs from that of the input and output grids it is folded into the sampler and only the shape of
`gridH` is kept.  There is no spatial grid, mask or determinant: `left_apply_to_Rn`, `sample_Rn` and
`grid_Rn` are `None` and never used by `forward`, the values given to them here are arbitrary. -/
noncomputable def subgroup (inC outC groups : ℕ) (mode : String) (width : ℝ) (quats : Tensor Quat) :
    Except PyErr (GroupKernel Mat3 0) := do
  let width ← defaultWidth width (nearestNeighbourDistance (elems quats))
  checkGroups groups {
    inC := inC
    outC := outC
    kernelSize := [1, 1, 1]
    groupKernelSize := [quats.shape.headD 0]
    groups := groups
    gridH := ⟨quats.shape, fun _ => 0⟩
    gridRn := ⟨[1, 1, 1], fun _ => 0⟩
    mask := none
    detH := none
    inverseH := fun H => H.map matrixInverse
    leftApplyToH := leftApplyToMatrix
    leftApplyToRn := fun A g => pairwise (fun _ v => v) A g
    sampleH := fun q sig _ => gridSampleQuat (q.map matrixToQuat) sig quats mode width
    sampleRn := fun _ _ => .error .typeError }

end KernelSO3
end GConv
