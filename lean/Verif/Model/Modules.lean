import Verif.Model.GConv
import Verif.Model.KernelInstances

/-! # Model of the premade convolution modules: `gconv/gnn/modules/gconv_sen/*.py`, `gconv_en/*.py`

One argument record serves the kernel and the layer because the modules pass the same values to both.
`device` arguments are not modelled. -/

namespace GConv.Conv

open Tensor

/-- constructor arguments of the premade modules that do not go to the kernel. -/
structure ConvOpts where
  stride : ℕ := 1
  padding : PadArg := .int 0
  dilation : ℕ := 1
  paddingMode : String := "zeros"
  permute : Bool := true

/-- a premade module: the layer, its kernel and `self.permute_output_grid`. -/
structure Module (G : Type) (d : ℕ) where
  layer : Layer
  kernel : GroupKernel G d
  permute : Bool

/-- `group_kernel_size` as handed to the base class (an integer or a tuple). -/
def sizeArg : SizeArg → GroupSize
  | .int n => .int n
  | .pair n m => .tuple [(n : ℤ), (m : ℤ)]

variable {G : Type} {d : ℕ}

/-- `left_apply(random(1), H)`: `move` is multiplication by the random element from the left.  The random
element is a grid of one element, which is broadcast: a single element without grid axis becomes a grid of
one element. -/
def moveGrid (move : G → G) (H : Tensor G) : Tensor G :=
  if H.shape = [] then ⟨[1], fun _ => move (H.get [])⟩ else H.map move

/-- `if self.permute_output_grid: H = left_apply(random(1), H)`. -/
def permuteGrid (permute : Bool) (move : G → G) (H : Tensor G) : Tensor G :=
  if permute then moveGrid move H else H

namespace Module

/-- `forward` of the lifting modules: gconv_se2.py:80-89, gconv_se3.py:80-89, gconv_e2.py:85-94,
gconv_e3.py:85-94. -/
noncomputable def lift (M : Module G d) (move : G → G) (weight : Tensor ℝ) (bias : Option (Tensor ℝ)) (input : Tensor ℝ)
    (H : Option (Tensor G)) : Except PyErr (Tensor ℝ × Tensor G) :=
  let H := H.getD M.kernel.gridH
  let H := permuteGrid M.permute move H
  M.layer.liftingForward M.kernel weight bias input H

/-- `forward` of `GConvSE2` (gconv_se2.py:266-275) and `GConvSE3` (gconv_se3.py:268-279). -/
noncomputable def groupSE (M : Module G d) (move : G → G) (weight : Tensor ℝ) (bias : Option (Tensor ℝ)) (input : Tensor ℝ)
    (inH : Tensor G) (outH : Option (Tensor G)) : Except PyErr (Tensor ℝ × Tensor G) :=
  let outH := outH.getD inH
  let outH := permuteGrid M.permute move outH
  M.layer.groupForward M.kernel weight bias input inH outH

/-- `forward` of `GSeparableConvSE2` (gconv_se2.py:173-182) and `GSeparableConvSE3` (gconv_se3.py:173-184). -/
noncomputable def separableSE (M : Module G d) (move : G → G) (weightH weight : Tensor ℝ) (bias : Option (Tensor ℝ))
    (input : Tensor ℝ) (inH : Tensor G) (outH : Option (Tensor G)) : Except PyErr (Tensor ℝ × Tensor G) :=
  let outH := outH.getD inH
  let outH := permuteGrid M.permute move outH
  M.layer.separableForward M.kernel weightH weight bias input inH outH

/-- `forward` of `GConvE2` (gconv_e2.py:281-290) and `GConvE3` (gconv_e3.py:281-290). -/
noncomputable def groupE (M : Module G d) (move : G → G) (weight : Tensor ℝ) (bias : Option (Tensor ℝ)) (input : Tensor ℝ)
    (inH : Tensor G) (outH : Option (Tensor G)) : Except PyErr (Tensor ℝ × Tensor G) :=
  let outH := outH.getD M.kernel.gridH
  let outH := permuteGrid M.permute move outH
  M.layer.groupForward M.kernel weight bias input inH outH

/-- `forward` of `GSeparableConvE2` (gconv_e2.py:183-192) and `GSeparableConvE3` (gconv_e3.py:183-192). -/
noncomputable def separableE (M : Module G d) (move : G → G) (weightH weight : Tensor ℝ) (bias : Option (Tensor ℝ))
    (input : Tensor ℝ) (inH : Tensor G) (outH : Option (Tensor G)) : Except PyErr (Tensor ℝ × Tensor G) :=
  let outH := outH.getD M.kernel.gridH
  let outH := permuteGrid M.permute move outH
  M.layer.separableForward M.kernel weightH weight bias input inH outH

end Module

/-- the constructor of a premade module: the kernel is built first, then the base class. -/
noncomputable def build (kernel : Except PyErr (GroupKernel G d)) (a : Args) (permute : Bool) :
    Except PyErr (Module G d) := do
  let K ← kernel
  let L ← init a K.kernelSize
  return ⟨L, K, permute⟩

/-- base class arguments of the SE(2) modules, gconv_se2.py:66-78, 159-171, 252-264. -/
def argsSE2 (k : KernelArgs ℝ ℕ) (c : ConvOpts) : Args :=
  args2d k.inC k.outC k.kernelSize (.int k.groupKernelSize) k.groups c.stride c.padding c.dilation c.paddingMode

/-- base class arguments of the SE(3) modules, gconv_se3.py:66-78, 159-171, 254-266. -/
def argsSE3 (k : KernelArgs SO3.Mat3 ℕ) (c : ConvOpts) : Args :=
  args3d k.inC k.outC k.kernelSize (.int k.groupKernelSize) k.groups c.stride c.padding c.dilation c.paddingMode

/-- base class arguments of the E(2) modules, gconv_e2.py:71-83, 169-181, 267-279. -/
def argsE2 (k : KernelArgs O2.Elt SizeArg) (c : ConvOpts) : Args :=
  args2d k.inC k.outC k.kernelSize (sizeArg k.groupKernelSize) k.groups c.stride c.padding c.dilation c.paddingMode

/-- base class arguments of the E(3) modules, gconv_e3.py:71-83, 169-181, 267-279. -/
def argsE3 (k : KernelArgs O3.Elt SizeArg) (c : ConvOpts) : Args :=
  args3d k.inC k.outC k.kernelSize (sizeArg k.groupKernelSize) k.groups c.stride c.padding c.dilation c.paddingMode

/-- `GLiftingConvSE2.__init__`, gconv_se2.py:11-78. -/
noncomputable def liftingSE2 (k : KernelArgs ℝ ℕ) (c : ConvOpts) : Except PyErr (Module ℝ 2) :=
  build (KernelSE2.lifting k) (argsSE2 k c) c.permute

/-- `GSeparableConvSE2.__init__` (gconv_se2.py:93-171), `GConvSE2.__init__` (186-264). -/
noncomputable def fullSE2 (k : KernelArgs ℝ ℕ) (c : ConvOpts) : Except PyErr (Module ℝ 2) :=
  build (KernelSE2.full k) (argsSE2 k c) c.permute

/-- `GLiftingConvSE3.__init__`, gconv_se3.py:11-78. -/
noncomputable def liftingSE3 (s : GridCache.Store (Tensor ℝ)) (opt : List SO3.Euler) (k : KernelArgs SO3.Mat3 ℕ)
    (c : ConvOpts) : Except PyErr (Module SO3.Mat3 3) :=
  build (KernelSE3.lifting s opt k) (argsSE3 k c) c.permute

/-- `GSeparableConvSE3.__init__` (gconv_se3.py:93-171), `GConvSE3.__init__` (188-266). -/
noncomputable def fullSE3 (s : GridCache.Store (Tensor ℝ)) (opt : List SO3.Euler) (k : KernelArgs SO3.Mat3 ℕ)
    (c : ConvOpts) : Except PyErr (Module SO3.Mat3 3) :=
  build (KernelSE3.full s opt k) (argsSE3 k c) c.permute

/-- `GLiftingConvE2.__init__`, gconv_e2.py:11-83. -/
noncomputable def liftingE2 (k : KernelArgs O2.Elt SizeArg) (c : ConvOpts) : Except PyErr (Module O2.Elt 2) :=
  build (KernelE2.lifting k) (argsE2 k c) c.permute

/-- `GSeparableConvE2.__init__` (gconv_e2.py:98-181), `GConvE2.__init__` (196-279). -/
noncomputable def fullE2 (k : KernelArgs O2.Elt SizeArg) (c : ConvOpts) : Except PyErr (Module O2.Elt 2) :=
  build (KernelE2.full k) (argsE2 k c) c.permute

/-- `GLiftingConvE3.__init__`, gconv_e3.py:11-83. -/
noncomputable def liftingE3 (s : GridCache.Store (Tensor ℝ)) (opt1 opt2 : List SO3.Euler)
    (k : KernelArgs O3.Elt SizeArg) (c : ConvOpts) : Except PyErr (Module O3.Elt 3) :=
  build (KernelE3.lifting s opt1 opt2 k) (argsE3 k c) c.permute

/-- `GSeparableConvE3.__init__` (gconv_e3.py:98-181), `GConvE3.__init__` (196-279). -/
noncomputable def fullE3 (s : GridCache.Store (Tensor ℝ)) (opt1 opt2 : List SO3.Euler)
    (k : KernelArgs O3.Elt SizeArg) (c : ConvOpts) : Except PyErr (Module O3.Elt 3) :=
  build (KernelE3.full s opt1 opt2 k) (argsE3 k c) c.permute

/-- `so2.left_apply_angle(so2.random_grid(1), ·)`; `u` is the outcome of `torch.rand(1)`. -/
noncomputable def moveSE2 (u : ℝ) : ℝ → ℝ := SO2.leftApplyAngle ((SO2.randomGrid [u]).headD 0)

/-- `so3.left_apply_matrix(so3.random_matrix(1), ·)`; `q` is the outcome of `torch.randn(1, 4)`. -/
noncomputable def moveSE3 (q : SO3.Quat) : SO3.Mat3 → SO3.Mat3 :=
  SO3.leftApplyMatrix ((SO3.randomMatrix [q]).headD 1)

/-- `o2.left_apply_angle(o2.random_grid(1), ·)`. -/
noncomputable def moveE2 (u v : ℝ) : O2.Elt → O2.Elt := O2.leftApplyAngle ((O2.randomGrid [u] [v]).headD (1, 0))

/-- `o3.left_apply_O3(o3.random_grid(1), ·)`. -/
noncomputable def moveE3 (q : SO3.Quat) (v : ℝ) : O3.Elt → O3.Elt :=
  O3.leftApplyO3 ((O3.randomGrid [q] [v]).headD fun _ => 0)

end GConv.Conv
