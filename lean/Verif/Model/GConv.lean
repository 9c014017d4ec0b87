import Verif.Torch.Spatial
import Verif.Model.Kernel

/-! # Model of `gconv/gnn/modules/gconv.py`

`Conv.Args` are the constructor arguments, `Conv.Layer` the attributes stored by the constructor.
Parameters (`kernel.weight`, `kernel.weight_H`, `bias`) are passed explicitly; their random
initialisation (`reset_parameters`, gconv.py:147-156) is modelled in `Model/Init.lean`.  Channel counts, kernel sizes,
strides, paddings and dilations are natural numbers. -/

namespace GConv.Conv

open Tensor

/-- `group_kernel_size: int | tuple`. -/
inductive GroupSize
  | int (n : ℤ)
  | tuple (l : List ℤ)

/-- `stride`, `dilation`: an integer or a tuple. -/
inductive Dims
  | int (n : ℕ)
  | tuple (l : List ℕ)

/-- `padding: tuple | int | str`. -/
inductive PadArg
  | str (s : String)
  | int (p : ℕ)
  | tuple (l : List ℕ)

/-- arguments of `GroupConvNd.__init__`, gconv.py:42-56 (without `kernel` and `bias`). -/
structure Args where
  inC : ℕ
  outC : ℕ
  kernelSize : List ℕ
  groupKernelSize : GroupSize
  groups : ℤ := 1
  stride : Dims := .int 1
  padding : PadArg := .int 0
  dilation : Dims := .int 1
  paddingMode : String := "zeros"
  convMode : String := "3d"

/-- attributes of the layer, gconv.py:89-138; `nd` is the rank of `_conv_forward` (2 or 3), `revPad` is
`_reversed_padding_repeated_twice`. -/
structure Layer where
  inC : ℕ
  outC : ℕ
  kernelSize : List ℕ
  groups : ℕ
  stride : Dims
  padding : PadArg
  dilation : Dims
  paddingMode : String
  nd : ℕ
  revPad : List ℕ

/-- `if cond: raise e`. -/
def raiseIf (c : Prop) [Decidable c] (e : PyErr) : Except PyErr Unit :=
  if c then .error e else .ok ()

/-- gconv.py:58-60. -/
def badGroupSize : GroupSize → Bool
  | .int _ => false
  | .tuple l => l.any (· < 0) || decide (l.sum ≤ 0)

/-- gconv.py:68-79; `any(s != 1 for s in stride)` raises TypeError for an integer stride. -/
def checkPadding (padding : PadArg) (stride : Dims) : Except PyErr Unit :=
  match padding with
  | .str s =>
    if s ≠ "same" ∧ s ≠ "valid" then .error .valueError
    else if s = "same" then
      match stride with
      | .int _ => .error .typeError
      | .tuple l => raiseIf (l.any (· ≠ 1)) .valueError
    else .ok ()
  | _ => .ok ()

/-- the loop gconv.py:124-134: `zip(dilation, kernel.kernel_size, range(len(kernel_size) - 1, -1, -1))`;
the third component is the number of kernel extents that follow. -/
def samePadLoop : List ℕ → List ℕ → List ℕ → List ℕ
  | d :: ds, k :: ks, acc =>
    let total := d * (k - 1)
    let left := total / 2
    samePadLoop ds ks ((acc.set (2 * ks.length) left).set (2 * ks.length + 1) (total - left))
  | _, _, acc => acc

/-- `torch.nn.modules.utils._reverse_repeat_tuple(t, 2)`. -/
def reverseRepeatTwice (l : List ℕ) : List ℕ := l.reverse.flatMap fun x => [x, x]

/-- gconv.py:120-138; `kernelKS` is `kernel.kernel_size`. -/
def reversedPadding (padding : PadArg) (dilation : Dims) (kernelKS : List ℕ) : Except PyErr (List ℕ) :=
  match padding with
  | .str s =>
    if s = "same" then
      match dilation with
      | .tuple d => .ok (samePadLoop d kernelKS (List.replicate (2 * kernelKS.length) 0))
      | .int _ => .error .typeError
    else .ok (List.replicate (2 * kernelKS.length) 0)
  | .tuple l => .ok (reverseRepeatTwice l)
  | .int _ => .error .typeError

/-- `self.padding`: `_pair` / `_triple` of an integer, gconv.py:99-113. -/
def storedPadding (nd : ℕ) : PadArg → PadArg
  | .int p => .tuple (List.replicate nd p)
  | p => p

/-- `GroupConvNd.__init__`, gconv.py:42-145; `kernelKS` is `kernel.kernel_size`. -/
def init (a : Args) (kernelKS : List ℕ) : Except PyErr Layer := do
  raiseIf (badGroupSize a.groupKernelSize) .valueError
  raiseIf (a.groups ≤ 0) .valueError
  raiseIf ((a.inC : ℤ) % a.groups ≠ 0) .valueError
  raiseIf ((a.outC : ℤ) % a.groups ≠ 0) .valueError
  checkPadding a.padding a.stride
  raiseIf (a.paddingMode ∉ ["zeros", "reflect", "replicate", "circular"]) .valueError
  let nd ← if a.convMode = "2d" then .ok 2 else if a.convMode = "3d" then .ok 3
    else (.error .valueError : Except PyErr ℕ)
  let padding := storedPadding nd a.padding
  let revPad ← reversedPadding padding a.dilation kernelKS
  return { inC := a.inC, outC := a.outC, kernelSize := a.kernelSize, groups := a.groups.toNat,
           stride := a.stride, padding := padding, dilation := a.dilation,
           paddingMode := a.paddingMode, nd := nd, revPad := revPad }

/-- arguments of the public classes `GLiftingConv2d`, `GSeparableConv2d`, `GConv2d` (gconv.py:387-540) and
of their 3d versions (543-696): `kernel_size`, `stride`, `dilation` go through `_pair` / `_triple`. -/
def argsNd (convMode : String) (nd : ℕ) (inC outC k : ℕ) (gks : GroupSize) (groups : ℤ) (stride : ℕ)
    (padding : PadArg) (dilation : ℕ) (paddingMode : String) : Args :=
  { inC := inC, outC := outC, kernelSize := List.replicate nd k, groupKernelSize := gks, groups := groups,
    stride := .tuple (List.replicate nd stride), padding := padding,
    dilation := .tuple (List.replicate nd dilation), paddingMode := paddingMode, convMode := convMode }

/-- 2d classes, gconv.py:423-436, 475-488, 527-540. -/
def args2d := argsNd "2d" 2

/-- 3d classes, gconv.py:579-592, 631-644, 683-696. -/
def args3d := argsNd "3d" 3

namespace Layer

/-- integer arguments and one-element tuples are repeated by `F.conv2d` / `F.conv3d`. -/
def expand (nd : ℕ) (l : List ℕ) : List ℕ := if l.length = 1 then List.replicate nd (l.headD 0) else l

/-- a `stride` / `dilation` argument of `F.conv2d` / `F.conv3d`. -/
def dims (nd : ℕ) : Dims → List ℕ
  | .int n => List.replicate nd n
  | .tuple l => expand nd l

/-- a `padding` argument of `F.conv2d` / `F.conv3d`. -/
def convPad (nd : ℕ) : PadArg → Except PyErr F.ConvPad
  | .str s => if s = "same" then .ok .same else if s = "valid" then .ok .valid else .error .runtimeError
  | .int p => .ok (.amounts (List.replicate nd p))
  | .tuple l => .ok (.amounts (expand nd l))

/-- the `mode` of `F.pad` (the other strings are rejected by the constructor). -/
def padMode (s : String) : Except PyErr F.CPad :=
  if s = "reflect" then .ok .reflect else if s = "replicate" then .ok .replicate
  else if s = "circular" then .ok .circular else .error .runtimeError

/-- `_conv2d_forward` (gconv.py:158-173) and `_conv3d_forward` (175-190) on an input with a batch axis. -/
def convBatched (L : Layer) (input weight : Tensor ℝ) (groups : ℕ) : Except PyErr (Tensor ℝ) :=
  if L.paddingMode ≠ "zeros" then do
    let mode ← padMode L.paddingMode
    let x ← F.pad mode input L.revPad
    F.conv x weight (dims L.nd L.stride) (.amounts (List.replicate L.nd 0)) (dims L.nd L.dilation) groups
  else do
    let p ← convPad L.nd L.padding
    F.conv input weight (dims L.nd L.stride) p (dims L.nd L.dilation) groups

/-- `_conv2d_forward` (gconv.py:158-173) and `_conv3d_forward` (175-190). Inputs with one axis less than `(N, C, *S)` are
taken by torch for one sample without batch axis. -/
def convForward (L : Layer) (input weight : Tensor ℝ) (groups : ℕ) : Except PyErr (Tensor ℝ) :=
  F.unbatched L.nd (fun x => L.convBatched x weight groups) input

/-- inputs with a batch axis. -/
theorem convForward_batched (L : Layer) {input : Tensor ℝ} (h : input.shape.length ≠ L.nd + 1) (weight : Tensor ℝ) (groups : ℕ) :
    L.convForward input weight groups = L.convBatched input weight groups := by
  unfold convForward F.unbatched
  rw [if_neg h]

/-- `if self.bias is not None: input = input + self.bias`, gconv.py:252-253, 324-325, 381-382; the bias has
shape `(out_channels, 1, ..., 1)` with `nd + 1` ones (106, 110, 141). -/
noncomputable def addBias (x : Tensor ℝ) (bias : Option (Tensor ℝ)) : Except PyErr (Tensor ℝ) :=
  match bias with
  | none => .ok x
  | some b => bzip (· + ·) x b

variable {G : Type} {d : ℕ}

/-- `GLiftingConvNd.forward` after the kernel has been sampled, gconv.py:244-255. -/
noncomputable def liftingConv (L : Layer) (w : Tensor ℝ) (bias : Option (Tensor ℝ)) (N : ℕ)
    (input : Tensor ℝ) (H : Tensor G) : Except PyErr (Tensor ℝ × Tensor G) := do
  let w ← w.viewInfer [] (L.inC / L.groups :: L.kernelSize)
  let x ← L.convForward input w L.groups
  let x ← x.view (N :: L.outC :: H.shape.headD 0 :: x.shape.drop 2)
  let x ← addBias x bias
  return (x, H)

/-- `GLiftingConvNd.forward`, gconv.py:238-255. -/
noncomputable def liftingForward (L : Layer) (K : GroupKernel G d) (weight : Tensor ℝ) (bias : Option (Tensor ℝ))
    (input : Tensor ℝ) (H : Tensor G) : Except PyErr (Tensor ℝ × Tensor G) :=
  match input.shape with
  | [] => .error .indexError
  | N :: _ => do
    let w ← K.liftingForward weight H
    L.liftingConv w bias N input H

/-- `GSeparableConvNd.forward` after the kernels have been sampled, gconv.py:300-327. -/
noncomputable def separableConv (L : Layer) (wH w : Tensor ℝ) (bias : Option (Tensor ℝ)) (N : ℕ) (inputDims : List ℕ)
    (input : Tensor ℝ) (inH outH : Tensor G) : Except PyErr (Tensor ℝ × Tensor G) := do
  let numInH := inH.shape.headD 0
  let numOutH := outH.shape.headD 0
  -- subgroup conv
  let x ← input.view (N :: L.inC * numInH :: inputDims)
  let wH ← wH.view (L.outC * numOutH :: (L.inC / L.groups) * numInH :: wH.shape.drop 4)
  let x ← L.convForward x wH L.groups
  -- spatial conv
  let w ← w.view (L.outC * numOutH :: 1 :: L.kernelSize)
  let x ← L.convForward x w (L.outC * numOutH)
  let x ← x.view (N :: L.outC :: numOutH :: x.shape.drop 2)
  let x ← addBias x bias
  return (x, outH)

/-- `GSeparableConvNd.forward`, gconv.py:292-327; an input with fewer than three axes cannot be unpacked
(ValueError). -/
noncomputable def separableForward (L : Layer) (K : GroupKernel G d) (weightH weight : Tensor ℝ)
    (bias : Option (Tensor ℝ)) (input : Tensor ℝ) (inH outH : Tensor G) : Except PyErr (Tensor ℝ × Tensor G) :=
  match input.shape with
  | N :: _ :: _ :: inputDims => do
    let w ← K.separableForward weightH weight inH outH
    L.separableConv w.1 w.2 bias N inputDims input inH outH
  | _ => .error .valueError

/-- `GConvNd.forward` after the kernel has been sampled, gconv.py:369-384. -/
noncomputable def groupConv (L : Layer) (w : Tensor ℝ) (bias : Option (Tensor ℝ)) (N : ℕ) (inputDims : List ℕ)
    (input : Tensor ℝ) (inH outH : Tensor G) : Except PyErr (Tensor ℝ × Tensor G) := do
  let numInH := inH.shape.headD 0
  let numOutH := outH.shape.headD 0
  let x ← input.view (N :: L.inC * numInH :: inputDims)
  let w ← w.view (L.outC * numOutH :: (L.inC / L.groups) * numInH :: L.kernelSize)
  let x ← L.convForward x w L.groups
  let x ← x.view (N :: L.outC :: numOutH :: x.shape.drop 2)
  let x ← addBias x bias
  return (x, outH)

/-- `GConvNd.forward`, gconv.py:361-384, with a `GKernel`. -/
noncomputable def groupForward (L : Layer) (K : GroupKernel G d) (weight : Tensor ℝ) (bias : Option (Tensor ℝ))
    (input : Tensor ℝ) (inH outH : Tensor G) : Except PyErr (Tensor ℝ × Tensor G) :=
  match input.shape with
  | N :: _ :: _ :: inputDims => do
    let w ← K.forward weight inH outH
    L.groupConv w bias N inputDims input inH outH
  | _ => .error .valueError

/-- `GConvNd.forward` with a `GSubgroupKernel` (convolution over the group only). -/
noncomputable def subgroupForward (L : Layer) (K : GroupKernel G d) (weight : Tensor ℝ) (bias : Option (Tensor ℝ))
    (input : Tensor ℝ) (inH outH : Tensor G) : Except PyErr (Tensor ℝ × Tensor G) :=
  match input.shape with
  | N :: _ :: _ :: inputDims => do
    let w ← K.subgroupForward weight inH outH
    L.groupConv w bias N inputDims input inH outH
  | _ => .error .valueError

end Layer
end GConv.Conv
