import Verif.Model.Kernel
import Verif.Torch.Spatial

/-! # Kernels stay in the range of the stored filters -/

namespace GConv.Spec

open Tensor

/-- The values of a lifting kernel compared with the stored filter `weight[co, ci]`, for grids of elements satisfying
`Valid`, where `sign g` is the factor an element `g` contributes (`1`, or the coefficient `±1`), `keep x` says whether cell
`x` is kept by the mask. -/
structure LiftingRange {G : Type} {d : ℕ} (K : GroupKernel G d) (pad : F.SPad) (Valid : G → Prop) (sign : G → ℝ)
    (keep : List ℕ → Prop) : Prop where
  /-- the kernel is never larger than the stored filter (any padding). -/
  bounded : ∀ (weight : Tensor ℝ) (H : Tensor G) (n : ℕ) (out : Tensor ℝ),
    weight.shape = [K.outC, K.inC / K.groups] ++ K.kernelSize → H.shape = [n] → (∀ h < n, Valid (H.get [h])) →
    K.liftingForward weight H = .ok out →
    ∀ co < K.outC, ∀ ci < K.inC / K.groups, ∀ M : ℝ, (∀ r, InB K.kernelSize r → |weight.get (co :: ci :: r)| ≤ M) →
      ∀ h < n, ∀ x, InB K.kernelSize x → |out.get (co :: h :: ci :: x)| ≤ M
  /-- with `border` or `reflection` padding it lies between any bounds of the filter, at cells kept by the mask. -/
  between : pad ≠ .zeros → ∀ (weight : Tensor ℝ) (H : Tensor G) (n : ℕ) (out : Tensor ℝ),
    weight.shape = [K.outC, K.inC / K.groups] ++ K.kernelSize → H.shape = [n] → (∀ h < n, Valid (H.get [h])) →
    K.liftingForward weight H = .ok out →
    ∀ co < K.outC, ∀ ci < K.inC / K.groups, ∀ A B : ℝ,
      (∀ r, InB K.kernelSize r → A ≤ weight.get (co :: ci :: r) ∧ weight.get (co :: ci :: r) ≤ B) →
      ∀ h < n, ∀ x, InB K.kernelSize x → keep x →
        A ≤ sign (H.get [h]) * out.get (co :: h :: ci :: x) ∧ sign (H.get [h]) * out.get (co :: h :: ci :: x) ≤ B
  /-- cells not kept by the mask are zero. -/
  dropped : ∀ (weight : Tensor ℝ) (H : Tensor G) (n : ℕ) (out : Tensor ℝ),
    weight.shape = [K.outC, K.inC / K.groups] ++ K.kernelSize → H.shape = [n] →
    K.liftingForward weight H = .ok out →
    ∀ co < K.outC, ∀ ci < K.inC / K.groups, ∀ h < n, ∀ x, InB K.kernelSize x → ¬ keep x → out.get (co :: h :: ci :: x) = 0

/-- The same for group kernels: the bounds are those of all stored filters at the channel pair. -/
structure GroupRange {G : Type} {d : ℕ} (K : GroupKernel G d) (pad : F.SPad) (Valid : G → Prop) (sign : G → ℝ)
    (keep : List ℕ → Prop) : Prop where
  bounded : ∀ (weight : Tensor ℝ) (inH outH : Tensor G) (m n : ℕ) (out : Tensor ℝ),
    weight.shape = [K.groupKernelDim, K.outC, K.inC / K.groups] ++ K.kernelSize → inH.shape = [m] → outH.shape = [n] →
    (∀ i < m, Valid (inH.get [i])) → (∀ o < n, Valid (outH.get [o])) →
    K.forward weight inH outH = .ok out →
    ∀ M : ℝ, (∀ k < K.groupKernelDim, ∀ co < K.outC, ∀ ci < K.inC / K.groups, ∀ r, InB K.kernelSize r →
        |weight.get (k :: co :: ci :: r)| ≤ M) →
      ∀ co < K.outC, ∀ o < n, ∀ ci < K.inC / K.groups, ∀ i < m, ∀ x, InB K.kernelSize x →
        |out.get (co :: o :: ci :: i :: x)| ≤ M
  between : pad ≠ .zeros → ∀ (weight : Tensor ℝ) (inH outH : Tensor G) (m n : ℕ) (out : Tensor ℝ),
    weight.shape = [K.groupKernelDim, K.outC, K.inC / K.groups] ++ K.kernelSize → inH.shape = [m] → outH.shape = [n] →
    (∀ i < m, Valid (inH.get [i])) → (∀ o < n, Valid (outH.get [o])) →
    K.forward weight inH outH = .ok out →
    ∀ A B : ℝ, (∀ k < K.groupKernelDim, ∀ co < K.outC, ∀ ci < K.inC / K.groups, ∀ r, InB K.kernelSize r →
        A ≤ weight.get (k :: co :: ci :: r) ∧ weight.get (k :: co :: ci :: r) ≤ B) →
      ∀ co < K.outC, ∀ o < n, ∀ ci < K.inC / K.groups, ∀ i < m, ∀ x, InB K.kernelSize x → keep x →
        A ≤ sign (outH.get [o]) * out.get (co :: o :: ci :: i :: x) ∧
          sign (outH.get [o]) * out.get (co :: o :: ci :: i :: x) ≤ B

end GConv.Spec
