import Verif.Torch.Tensor

/-! # The part of a feature map that belongs to one group element -/
namespace GConv.Spec

/-- `x[:, :, k:k+1]`. -/
def elementPart (k : ℕ) (x : Tensor ℝ) : Tensor ℝ :=
  ⟨x.shape.set 2 1, fun idx => x.get (idx.set 2 k)⟩

/-- `H[k:k+1]`. -/
def elementOf {G : Type} (k : ℕ) (H : Tensor G) : Tensor G := ⟨[1], fun _ => H.get [k]⟩

end GConv.Spec
