import Verif.Torch.Tensor

/-! # Blocks of channels -/
namespace GConv.Spec

open Tensor

/-- `C` channels are divided into `g` blocks of `C / g` consecutive ones; channel `c` belongs to this block. -/
def blockOf (C g c : ℕ) : ℕ := c / (C / g)

/-- Two tensors `(N, C, *S)` of the same shape agree on block `j` of the `g` blocks of their `C` channels. -/
def SameBlock (C g j : ℕ) (x x' : Tensor ℝ) : Prop :=
  ∃ N S, x.shape = N :: C :: S ∧ x'.shape = N :: C :: S ∧
    ∀ b c q, b < N → c < C → InB S q → blockOf C g c = j → x.get (b :: c :: q) = x'.get (b :: c :: q)

/-- results of layers: the feature maps agree on block `j`, the grids are the same. -/
def SameBlockMaps {G : Type} (C g j : ℕ) (r r' : Tensor ℝ × Tensor G) : Prop := SameBlock C g j r.1 r'.1 ∧ r.2 = r'.2

end GConv.Spec
