import Verif.Model.KernelInstances

/-! # Model of `GSubgroupKernelSO3` objects: construction with the default grid, saving and restoring

`Model/KernelInstances.lean` models what the object computes, with the quaternions of its reference grid folded into the
sampler.  Here the object keeps its reference grid (the buffer `grid_H`) and its width (an entry of the plain attribute
`sample_H_kwargs`) as separate fields, so that a state can be loaded into it. -/

namespace GConv.KernelSO3

open Tensor SO3

/-- the reference grid: `if grid_H is None: grid_H = so3.uniform_grid(size=group_kernel_size)`, kernel_so3.py:45-46;
quaternions, shape `(n, 4)`, folded to `[n]` (`so3.uniform_grid(0)` has shape `(0,)`, see `KernelSE3.foldMat`). -/
noncomputable def grid (s : GridCache.Store (Tensor ℝ)) (opt : List Euler) (size : ℕ) (given : Option (Tensor Quat)) :
    Except PyErr (Tensor Quat) :=
  match given with
  | some g => .ok g
  | none => do
    let t ← (uniformGrid s size "quat" opt false).1
    match t.shape with
    | [n, 4] => .ok ⟨[n], fun idx c => t.get [idx.headD 0, c]⟩
    | [0] => .ok ⟨[0, 0], fun _ => 0⟩
    | _ => .error .runtimeError

/-- a `GSubgroupKernelSO3` object: attributes, and the buffer `grid_H`. -/
structure Obj where
  inC : ℕ
  outC : ℕ
  groups : ℕ
  mode : String
  width : ℝ
  quats : Tensor Quat

/-- `GSubgroupKernelSO3.__init__`, kernel_so3.py:16-64. -/
noncomputable def init (s : GridCache.Store (Tensor ℝ)) (opt : List Euler) (inC outC size groups : ℕ) (mode : String) (width : ℝ)
    (given : Option (Tensor Quat)) : Except PyErr Obj := do
  let quats ← grid s opt size given
  let width ← defaultWidth width (nearestNeighbourDistance (elems quats))
  checkGroups groups ⟨inC, outC, groups, mode, width, quats⟩

/-- what the object computes (kernel_so3.py:53-64 and kernel.py:91-113); the grid is read from the buffer in every call. -/
noncomputable def Obj.kernel (o : Obj) : GroupKernel Mat3 0 where
  inC := o.inC
  outC := o.outC
  kernelSize := [1, 1, 1]
  groupKernelSize := [o.quats.shape.headD 0]
  groups := o.groups
  gridH := ⟨o.quats.shape, fun _ => 0⟩
  gridRn := ⟨[1, 1, 1], fun _ => 0⟩
  mask := none
  detH := none
  inverseH := fun H => H.map matrixInverse
  leftApplyToH := leftApplyToMatrix
  leftApplyToRn := fun A g => pairwise (fun _ v => v) A g
  sampleH := fun q sig _ => gridSampleQuat (q.map matrixToQuat) sig o.quats o.mode o.width
  sampleRn := fun _ _ => .error .typeError

/-- the buffers in `state_dict()`: only `grid_H`; `grid_Rn` and `mask` are `None` (kernel.py:102-105). -/
def Obj.state (o : Obj) : Tensor Quat := o.quats

/-- `load_state_dict` (torch, `strict=True`): the buffer gets the saved values, the attributes stay as they are. -/
def Obj.load (o : Obj) (st : Tensor Quat) : Except PyErr Obj :=
  if o.quats.shape = st.shape then .ok { o with quats := st } else .error .runtimeError

end GConv.KernelSO3
