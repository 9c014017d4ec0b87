import Verif.Spec.Batch
import Verif.Model.Network

/-! # Small changes of the input -/
namespace GConv.Spec

open Tensor

/-- `x` and `y` have the same shape and no entry differs by more than `ε`. -/
def Within (ε : ℝ) (x y : Tensor ℝ) : Prop :=
  x.shape = y.shape ∧ ∀ i, InB x.shape i → |x.get i - y.get i| ≤ ε

/-- results of layers: feature maps within `ε`, the same grid. -/
def WithinLayer {G : Type} (ε : ℝ) (x y : Tensor ℝ × Tensor G) : Prop := Within ε x.1 y.1 ∧ x.2 = y.2

/-- no entry is larger than `M`. -/
def Bounded (M : ℝ) (x : Tensor ℝ) : Prop := ∀ i, InB x.shape i → |x.get i| ≤ M

end GConv.Spec
