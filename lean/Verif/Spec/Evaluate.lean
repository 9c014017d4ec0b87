import Verif.Model.Kernel
import Verif.Spec.Kernel

/-! # What it means that a kernel can be evaluated -/

namespace GConv.Spec

open Tensor

/-- `GroupKernel.forward` and `GSeparableKernel.forward` return tensors of the documented shapes for all weights of the
parameter shapes and all grids `in_H`, `out_H` of valid elements (of equal size for separable kernels). -/
structure Evaluates {G : Type} {d : ℕ} (K : GroupKernel G d) (Valid : G → Prop) : Prop where
  full : ∀ (weight : Tensor ℝ) (inH outH : Tensor G) (nIn nOut : ℕ),
    weight.shape = [K.groupKernelSize.sum, K.outC, K.inC / K.groups] ++ K.kernelSize →
    inH.shape = [nIn] → outH.shape = [nOut] → (∀ i < nIn, Valid (inH.get [i])) → (∀ o < nOut, Valid (outH.get [o])) →
    ∃ out, K.forward weight inH outH = .ok out ∧ out.shape = [K.outC, nOut, K.inC / K.groups, nIn] ++ K.kernelSize
  separable : ∀ (weightH weight : Tensor ℝ) (inH outH : Tensor G) (n : ℕ),
    weightH.shape = [K.groupKernelSize.sum, K.outC, K.inC / K.groups] → weight.shape = [K.outC, 1] ++ K.kernelSize →
    inH.shape = [n] → outH.shape = [n] → (∀ i < n, Valid (inH.get [i])) → (∀ o < n, Valid (outH.get [o])) →
    ∃ wH w, K.separableForward weightH weight inH outH = .ok (wH, w) ∧
      wH.shape = [K.outC, n, K.inC / K.groups, n] ++ List.replicate K.kernelSize.length 1 ∧
      w.shape = [K.outC, n, 1] ++ K.kernelSize

/-- The kernel contains its stored filters: wherever `out_H[o]⁻¹ in_H[i]` is the reference element `k` (`rel (out_H[o])
(in_H[i]) k`), slice `(o, i)` of a full kernel is stored filter `k` moved to `out_H[o]` (`place`), for every channel pair
(`storedChannel`: which stored channels a pair reads); the group part of a separable kernel is the stored weight `k` itself,
and its spatial part the stored filter moved to `out_H[o]`. -/
structure Recovers {G : Type} {d : ℕ} (K : GroupKernel G d) (Valid : G → Prop) (rel : G → G → ℕ → Prop)
    (place : G → (List ℕ → ℝ) → List ℕ → ℝ) : Prop where
  full : ∀ (weight : Tensor ℝ) (inH outH : Tensor G) (nIn nOut : ℕ),
    weight.shape = [K.groupKernelSize.sum, K.outC, K.inC / K.groups] ++ K.kernelSize →
    inH.shape = [nIn] → outH.shape = [nOut] → (∀ i < nIn, Valid (inH.get [i])) → (∀ o < nOut, Valid (outH.get [o])) →
    ∃ out, K.forward weight inH outH = .ok out ∧ out.shape = [K.outC, nOut, K.inC / K.groups, nIn] ++ K.kernelSize ∧
      ∀ o < nOut, ∀ i < nIn, ∀ k, rel (outH.get [o]) (inH.get [i]) k →
        ∀ co < K.outC, ∀ ci < K.inC / K.groups, ∀ x, InB K.kernelSize x →
          out.get (co :: o :: ci :: i :: x) = place (outH.get [o]) (fun r => weight.get (k ::
            (storedChannel K.outC (K.inC / K.groups) co ci).1 :: (storedChannel K.outC (K.inC / K.groups) co ci).2 :: r)) x
  separable : ∀ (weightH weight : Tensor ℝ) (inH outH : Tensor G) (n : ℕ),
    weightH.shape = [K.groupKernelSize.sum, K.outC, K.inC / K.groups] → weight.shape = [K.outC, 1] ++ K.kernelSize →
    inH.shape = [n] → outH.shape = [n] → (∀ i < n, Valid (inH.get [i])) → (∀ o < n, Valid (outH.get [o])) →
    ∃ wH w, K.separableForward weightH weight inH outH = .ok (wH, w) ∧
      wH.shape = [K.outC, n, K.inC / K.groups, n] ++ List.replicate K.kernelSize.length 1 ∧
      w.shape = [K.outC, n, 1] ++ K.kernelSize ∧
      (∀ o < n, ∀ i < n, ∀ k, rel (outH.get [o]) (inH.get [i]) k → ∀ co < K.outC, ∀ ci < K.inC / K.groups,
        wH.get (co :: o :: ci :: i :: List.replicate K.kernelSize.length 0) = weightH.get [k,
          (storedChannel K.outC (K.inC / K.groups) co ci).1, (storedChannel K.outC (K.inC / K.groups) co ci).2]) ∧
      (∀ o < n, ∀ co < K.outC, ∀ x, InB K.kernelSize x →
        w.get (co :: o :: 0 :: x) = place (outH.get [o]) (fun r => weight.get (co :: 0 :: r)) x)

end GConv.Spec
