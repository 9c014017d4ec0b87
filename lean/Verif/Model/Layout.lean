import Verif.Torch.Strided
import Verif.Model.GConv
import Verif.Model.Normalization

/-! # Layers applied to strided tensors

The other models are about entries. Here the calls of `view` in the layers are those of strided tensors, which
raise when the strides do not permit the new shape; `reshape` and `flatten` copy in that case. `lay` is the layout in which
torch's convolution stores its result (row-major, or channels-last if the input is). Results of normalisations and sums are
read entry by entry afterwards, so their layout is not needed; weights are reshaped with `reshape`. -/
namespace GConv.Layout

open Tensor Conv

variable {G : Type} {d : ℕ}

/-- `GLiftingConvNd.forward`, gconv.py:238-255. -/
noncomputable def lifting (lay : Tensor ℝ → Strided ℝ) (L : Layer) (K : GroupKernel G d) (weight : Tensor ℝ)
    (bias : Option (Tensor ℝ)) (input : Strided ℝ) (H : Tensor G) : Except PyErr (Tensor ℝ × Tensor G) :=
  match input.shape with
  | [] => .error .indexError
  | N :: _ => do
    let w ← K.liftingForward weight H
    let w ← w.viewInfer [] (L.inC / L.groups :: L.kernelSize)
    let x ← L.convForward input.tensor w L.groups
    let x ← (lay x).view (N :: L.outC :: H.shape.headD 0 :: x.shape.drop 2)
    let x ← Layer.addBias x.tensor bias
    return (x, H)

/-- `GConvNd.forward`, gconv.py:361-384. -/
noncomputable def group (lay : Tensor ℝ → Strided ℝ) (L : Layer) (K : GroupKernel G d) (weight : Tensor ℝ)
    (bias : Option (Tensor ℝ)) (input : Strided ℝ) (inH outH : Tensor G) : Except PyErr (Tensor ℝ × Tensor G) :=
  match input.shape with
  | N :: _ :: _ :: inputDims => do
    let w ← K.forward weight inH outH
    let x ← input.reshape (N :: L.inC * inH.shape.headD 0 :: inputDims)
    let w ← w.view (L.outC * outH.shape.headD 0 :: (L.inC / L.groups) * inH.shape.headD 0 :: L.kernelSize)
    let x ← L.convForward x.tensor w L.groups
    let x ← (lay x).view (N :: L.outC :: outH.shape.headD 0 :: x.shape.drop 2)
    let x ← Layer.addBias x.tensor bias
    return (x, outH)
  | _ => .error .valueError

/-- `GSeparableConvNd.forward`, gconv.py:292-327; the first convolution stores its result in layout `lay₁`. -/
noncomputable def separable (lay₁ lay : Tensor ℝ → Strided ℝ) (L : Layer) (K : GroupKernel G d) (weightH weight : Tensor ℝ)
    (bias : Option (Tensor ℝ)) (input : Strided ℝ) (inH outH : Tensor G) : Except PyErr (Tensor ℝ × Tensor G) :=
  match input.shape with
  | N :: _ :: _ :: inputDims => do
    let w ← K.separableForward weightH weight inH outH
    let x ← input.reshape (N :: L.inC * inH.shape.headD 0 :: inputDims)
    let wH ← w.1.view (L.outC * outH.shape.headD 0 :: (L.inC / L.groups) * inH.shape.headD 0 :: w.1.shape.drop 4)
    let x ← L.convForward x.tensor wH L.groups
    let w ← w.2.view (L.outC * outH.shape.headD 0 :: 1 :: L.kernelSize)
    let x ← L.convForward (lay₁ x).tensor w (L.outC * outH.shape.headD 0)
    let x ← (lay x).view (N :: L.outC :: outH.shape.headD 0 :: x.shape.drop 2)
    let x ← Layer.addBias x.tensor bias
    return (x, outH)
  | _ => .error .valueError

/-- `forward` of `GBatchNorm2d/3d` and `GInstanceNorm2d/3d`, normalization.py:6-32, on a strided tensor; `norm` is the forward of
the base class, whose result is stored in the layout `lay`. -/
noncomputable def folded (lay : Tensor ℝ → Strided ℝ) (norm : Tensor ℝ → Except PyErr (Tensor ℝ × F.Running)) (x : Strided ℝ)
    (H : Tensor G) : Except PyErr ((Tensor ℝ × Tensor G) × F.Running) :=
  match x.shape with
  | N :: C :: h :: Z :: dims => do
    let y ← x.view (N :: C :: h * Z :: dims)
    let y ← norm y.tensor
    let z ← (lay y.1).view (N :: C :: h :: Z :: dims)
    return ((z.tensor, H), y.2)
  | _ => .error .valueError

/-- `GBatchNorm2d/3d.forward`, normalization.py:6-15. -/
noncomputable def batch (lay : Tensor ℝ → Strided ℝ) (nd : ℕ) (a : F.NormArgs) (training : Bool) (r : F.Running) (x : Strided ℝ)
    (H : Tensor G) : Except PyErr ((Tensor ℝ × Tensor G) × F.Running) :=
  folded lay (F.batchNorm nd a training r) x H

/-- `GInstanceNorm2d/3d.forward`, normalization.py:23-32. -/
noncomputable def inst (lay : Tensor ℝ → Strided ℝ) (nd : ℕ) (a : F.NormArgs) (training : Bool) (r : F.Running) (x : Strided ℝ)
    (H : Tensor G) : Except PyErr ((Tensor ℝ × Tensor G) × F.Running) :=
  folded lay (F.instanceNorm nd a training r) x H

end GConv.Layout
