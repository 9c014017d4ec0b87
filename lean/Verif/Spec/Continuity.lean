import Verif.Model.GConv
import Mathlib.Topology.Basic
import Mathlib.Topology.Order.Real

/-! # Continuous dependence of kernels and layers on everything that enters them -/

namespace GConv.Spec

open Tensor

variable {X : Type} [TopologicalSpace X]

/-- a family of tensors of one shape whose entries depend continuously on `t : X`. -/
structure ContTensor (s : List ℕ) (T : X → Tensor ℝ) : Prop where
  shape : ∀ t, (T t).shape = s
  entry : ∀ idx, InB s idx → Continuous fun t => (T t).get idx

/-- a family of grids of `n` group elements, each moving continuously in the sense of `C`. -/
structure ContGrid {G : Type} (C : (X → G) → Prop) (n : ℕ) (H : X → Tensor G) : Prop where
  shape : ∀ t, (H t).shape = [n]
  entry : ∀ i < n, C fun t => (H t).get [i]

/-- Kernels of weights and grids that move continuously move continuously. -/
structure ContinuousKernel {G : Type} {d : ℕ} (K : GroupKernel G d) (C : (X → G) → Prop) : Prop where
  full : ∀ (weight : X → Tensor ℝ) (inH outH : X → Tensor G) (m n : ℕ),
    ContTensor ([K.groupKernelDim, K.outC, K.inC / K.groups] ++ K.kernelSize) weight → ContGrid C m inH → ContGrid C n outH →
    ∃ out : X → Tensor ℝ, (∀ t, K.forward (weight t) (inH t) (outH t) = .ok (out t)) ∧
      ContTensor ([K.outC, n, K.inC / K.groups, m] ++ K.kernelSize) out
  separable : ∀ (weightH weight : X → Tensor ℝ) (inH outH : X → Tensor G) (n : ℕ),
    ContTensor [K.groupKernelDim, K.outC, K.inC / K.groups] weightH → ContTensor ([K.outC, 1] ++ K.kernelSize) weight →
    ContGrid C n inH → ContGrid C n outH →
    ∃ outH' out : X → Tensor ℝ, (∀ t, K.separableForward (weightH t) (weight t) (inH t) (outH t) = .ok (outH' t, out t)) ∧
      ContTensor ([K.outC, n, K.inC / K.groups, n] ++ List.replicate K.kernelSize.length 1) outH' ∧
      ContTensor ([K.outC, n, 1] ++ K.kernelSize) out

/-- Lifting kernels. -/
def ContinuousLifting {G : Type} {d : ℕ} (K : GroupKernel G d) (C : (X → G) → Prop) : Prop :=
  ∀ (weight : X → Tensor ℝ) (H : X → Tensor G) (n : ℕ),
    ContTensor ([K.outC, K.inC / K.groups] ++ K.kernelSize) weight → ContGrid C n H →
    ∃ out : X → Tensor ℝ, (∀ t, K.liftingForward (weight t) (H t) = .ok (out t)) ∧
      ContTensor ([K.outC, n, K.inC / K.groups] ++ K.kernelSize) out

end GConv.Spec
