import Verif.Model.GConv
import Mathlib.Analysis.SpecialFunctions.Sqrt

/-! # Model of parameter initialisation: `reset_parameters` of the kernels and of the convolutions

Random draws are explicit: `u` (numbers of `uniform_` before scaling) and `z` (numbers of `normal_` before scaling),
one per entry.  The contents of freshly allocated memory (`torch.empty`) are explicit too. -/

namespace GConv.Init

open Tensor

/-- `torch.nn.init._calculate_fan_in_and_fan_out(tensor)[0]`: size of axis 1 times the sizes of the axes after it;
ValueError for tensors with fewer than two axes. -/
def fanIn : List ℕ → Except PyErr ℕ
  | _ :: s :: rest => .ok (s * rest.prod)
  | _ => .error .valueError

/-- `torch.nn.init.calculate_gain('leaky_relu', a)`. -/
noncomputable def gain (a : ℝ) : ℝ := √(2 / (1 + a ^ 2))

/-- `tensor.uniform_(lo, hi)`: `lo + (hi - lo) * u` with `u` drawn from `[0, 1)`. -/
noncomputable def uniform_ (t : Tensor ℝ) (lo hi : ℝ) (u : List ℕ → ℝ) : Tensor ℝ :=
  ⟨t.shape, fun i => lo + (hi - lo) * u i⟩

/-- `tensor.normal_(0, std)`. -/
noncomputable def normal_ (t : Tensor ℝ) (std : ℝ) (z : List ℕ → ℝ) : Tensor ℝ :=
  ⟨t.shape, fun i => std * z i⟩

/-- `torch.nn.init.kaiming_uniform_(tensor, a)` (mode 'fan_in', 'leaky_relu'): nothing happens to tensors without
entries. -/
noncomputable def kaimingUniform (t : Tensor ℝ) (a : ℝ) (u : List ℕ → ℝ) : Except PyErr (Tensor ℝ) :=
  if 0 ∈ t.shape then .ok t else do
    let fan ← fanIn t.shape
    let std := gain a / √(fan : ℝ)
    let bound := √3 * std
    return uniform_ t (-bound) bound u

/-- `torch.nn.init.kaiming_normal_(tensor, a)`. -/
noncomputable def kaimingNormal (t : Tensor ℝ) (a : ℝ) (z : List ℕ → ℝ) : Except PyErr (Tensor ℝ) :=
  if 0 ∈ t.shape then .ok t else do
    let fan ← fanIn t.shape
    let std := gain a / √(fan : ℝ)
    return normal_ t std z

/-- the parameters of a layer. -/
inductive Param | weightH | weight | bias
deriving DecidableEq

/-- one random number per entry of every parameter. -/
abbrev Draws := Param → List ℕ → ℝ

/-- the parameters that a kernel holds: `self.weight`, and `self.weight_H` of a separable kernel. -/
structure KernelParams where
  weightH : Option (Tensor ℝ)
  weight : Tensor ℝ

/-- the four kernel classes of kernel.py. -/
inductive Kind | lifting | separable | subgroup | group
deriving DecidableEq

variable {G : Type} {d : ℕ}

/-- the shape of `self.weight`: kernel.py:162-164 (lifting), 246 (separable), 341-343 (subgroup), 423-430 (group). -/
def weightShape (K : GroupKernel G d) : Kind → List ℕ
  | .lifting => K.outC :: (K.inC / K.groups) :: K.kernelSize
  | .separable => K.outC :: 1 :: K.kernelSize
  | .subgroup => [K.groupKernelDim, K.outC, K.inC / K.groups]
  | .group => K.groupKernelDim :: K.outC :: (K.inC / K.groups) :: K.kernelSize

/-- the shape of `self.weight_H`, kernel.py:242-244 (only the separable kernel has it). -/
def weightHShape (K : GroupKernel G d) : Kind → Option (List ℕ)
  | .separable => some [K.groupKernelDim, K.outC, K.inC / K.groups]
  | _ => none

/-- `reset_parameters` of `GLiftingKernel` (kernel.py:171-172), `GSeparableKernel` (253-255), `GSubgroupKernel`
(347-348) and `GKernel` (436-437). -/
noncomputable def kernelReset (kind : Kind) (p : KernelParams) (r : Draws) : Except PyErr KernelParams :=
  match kind with
  | .lifting => do
    let w ← kaimingNormal p.weight √5 (r .weight)
    return { p with weight := w }
  | .separable =>
    match p.weightH with
    | none => .error .attributeError
    | some h => do
      let h ← kaimingUniform h √5 (r .weightH)
      let w ← kaimingUniform p.weight √5 (r .weight)
      return ⟨some h, w⟩
  | _ => do
    let w ← kaimingUniform p.weight √5 (r .weight)
    return { p with weight := w }

/-- the end of the kernel constructors: the parameters are allocated (`torch.empty`, contents `junk`) and reset,
kernel.py:162-169, 242-251, 341-345, 423-434. -/
noncomputable def kernelInit (kind : Kind) (K : GroupKernel G d) (junk r : Draws) : Except PyErr KernelParams :=
  kernelReset kind ⟨(weightHShape K kind).map fun s => ⟨s, junk .weightH⟩, ⟨weightShape K kind, junk .weight⟩⟩ r

/-- `GroupConvNd.reset_parameters`, gconv.py:147-156. -/
noncomputable def convReset (kind : Kind) (p : KernelParams) (bias : Option (Tensor ℝ)) (r : Draws) :
    Except PyErr (KernelParams × Option (Tensor ℝ)) := do
  let p ← kernelReset kind p r
  match bias with
  | none => return (p, none)
  | some b => do
    let fan ← fanIn p.weight.shape
    if fan ≠ 0 then
      let bound := 1 / √(fan : ℝ)
      return (p, some (uniform_ b (-bound) bound (r .bias)))
    else return (p, some b)

/-- the shape of the bias, gconv.py:106, 110, 141. -/
def biasShape (L : Conv.Layer) : List ℕ := L.outC :: List.replicate (L.nd + 1) 1

/-- the parameters after constructing a kernel (draws `r₀`) and a convolution of that kernel (draws `r`):
`self.bias` is allocated when `bias=True`, then everything is reset, gconv.py:140-145. -/
noncomputable def build (kind : Kind) (K : GroupKernel G d) (L : Conv.Layer) (bias : Bool) (junk r₀ r : Draws) :
    Except PyErr (KernelParams × Option (Tensor ℝ)) := do
  let p ← kernelInit kind K junk r₀
  let b := if bias then some (⟨biasShape L, junk .bias⟩ : Tensor ℝ) else none
  convReset kind p b r

end GConv.Init
