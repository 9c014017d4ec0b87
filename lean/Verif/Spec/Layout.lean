import Verif.Torch.Strided
import Verif.Spec.Batch
import Verif.Spec.Reading
import Verif.Torch.NN

/-! # What a strided tensor shows -/
namespace GConv.Spec

open Tensor

/-- the strided tensor `x` shows the entries of `t`. -/
def Shows {α : Type} (x : Strided α) (t : Tensor α) : Prop :=
  x.shape = t.shape ∧ ∀ i, InB t.shape i → x.tensor.get i = t.get i

/-- a layout: for every tensor, some way to store its entries (row-major, channels-last, transposed, ...). -/
def IsLayout (lay : Tensor ℝ → Strided ℝ) : Prop := ∀ t, Shows (lay t) t

/-- results of layers: the feature maps have the same entries, the grids are the same. -/
def SameLayer {G : Type} (x y : Tensor ℝ × Tensor G) : Prop := SameEntries x.1 y.1 ∧ x.2 = y.2

/-- results of normalisations with `features` channels: the same feature map, grid and running statistics. -/
structure SameNorm {G : Type} (features : ℕ) (x y : (Tensor ℝ × Tensor G) × F.Running) : Prop where
  layer : SameLayer x.1 y.1
  count : x.2.count = y.2.count
  mean : ∀ c < features, x.2.mean c = y.2.mean c
  var : ∀ c < features, x.2.var c = y.2.var c

/-- the group axis (size `h`, stride `st`) and the first spatial axis (size `Z`, stride `st'`) can be counted through with one
stride. -/
def Foldable (h st Z st' : ℕ) : Prop := h ≤ 1 ∨ Z ≤ 1 ∨ st = Z * st'

/-- strides `st` for the shape `s` under which the storage of `x` shows the entries of `x` in row-major order. -/
def Describes {α : Type} (x : Strided α) (s st : List ℕ) : Prop :=
  st.length = s.length ∧
    ∀ i, InB s i → Strided.off (s.zip st) i = Strided.off x.axes (unravel x.shape (ravel s i))

end GConv.Spec
