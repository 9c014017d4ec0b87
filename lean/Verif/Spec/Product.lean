import Verif.Torch.Tensor

/-! # Product filters -/
namespace GConv.Spec

/-- The parameters of a full kernel whose filters are products of the parameters of a separable kernel: `weightH[k, a, b]`
times the spatial filter of the output channel that reads entry `(k, a, b)` (`GKernel.forward` hands the stored pairs to the
pairs of channels in the order of their positions `a * CI + b = ci * CO + co`, so this is `co = (a * CI + b) % CO`). -/
def productFilters (CO CI : ℕ) (weightH weight : Tensor ℝ) : Tensor ℝ :=
  ⟨weightH.shape ++ weight.shape.drop 2, fun idx => match idx with
    | k :: a :: b :: r => weightH.get [k, a, b] * weight.get ((a * CI + b) % CO :: 0 :: r)
    | _ => 0⟩

/-- two tensors of the same shape with the same entries. -/
def SameTensor (x y : Tensor ℝ) : Prop := x.shape = y.shape ∧ ∀ idx, Tensor.InB x.shape idx → x.get idx = y.get idx

end GConv.Spec
