import Verif.Spec.Equivariance
import Verif.Spec.Batch

/-! # Feature maps that are other feature maps, read elsewhere -/

namespace GConv.Spec

open Tensor

/-- `x` and `x'` have the same `k` leading axes and spatial extents `S` and `S'`; at every spatial position `q` the
tensor `x'` holds what `x` holds at `φ q`. -/
def Reads (φ : List ℕ → List ℕ) (k : ℕ) (S S' : List ℕ) (x x' : Tensor ℝ) : Prop :=
  ∃ p : List ℕ, p.length = k ∧ x.shape = p ++ S ∧ x'.shape = p ++ S' ∧
    ∀ i q, InB p i → InB S' q → x'.get (i ++ q) = x.get (i ++ φ q)

/-- `x'` is `x` rolled around the torus: at every spatial position `q` it holds what `x` holds at `q + t` modulo the
extents (`torch.roll` of the spatial axes). -/
def Rolled (t : List ℤ) (k : ℕ) (S : List ℕ) (x x' : Tensor ℝ) : Prop := Reads (wrap S t) k S S x x'

/-- the results of two passes: the feature maps (with `k` leading axes) are rolled, the grids are the same. -/
def RolledLayer {G : Type} (t : List ℤ) (k : ℕ) (S : List ℕ) (x x' : Tensor ℝ × Tensor G) : Prop :=
  Rolled t k S x.1 x'.1 ∧ x.2 = x'.2

/-- positions moved by `off`. -/
def plus (off q : List ℕ) : List ℕ := List.zipWith (· + ·) off q

/-- a non-empty box of extents `S'` with corner `off` lies inside a box of extents `S`. -/
def InsideBox (off S S' : List ℕ) : Prop :=
  off.length = S.length ∧ S'.length = S.length ∧
    ∀ i < S.length, 0 < S'.getD i 0 ∧ off.getD i 0 + S'.getD i 0 ≤ S.getD i 0

/-- `x'` is a non-empty crop of `x`: the box with corner `off` is cut out of the spatial axes (all but the `k` leading axes). -/
def Cropped (off : List ℕ) (k : ℕ) (x x' : Tensor ℝ) : Prop :=
  ∃ S S', InsideBox off S S' ∧ Reads (plus off) k S S' x x'

/-- the results of two passes: the second feature map is a crop of the first, the grids are the same. -/
def CroppedLayer {G : Type} (off : List ℕ) (k : ℕ) (x x' : Tensor ℝ × Tensor G) : Prop :=
  Cropped off k x.1 x'.1 ∧ x.2 = x'.2

/-- whenever the second call succeeds so does the first, with results related by `R`. -/
def Transfers {A B : Type} (R : A → B → Prop) (e : Except PyErr A) (e' : Except PyErr B) : Prop :=
  ∀ b, e' = .ok b → ∃ a, e = .ok a ∧ R a b

/-- where in the image the crop lies whose features are those from `u` on, after layers with the given strides. -/
def cropStart : List (List ℕ) → List ℕ → List ℕ
  | [], u => u
  | st :: sts, u => List.zipWith (· * ·) st (cropStart sts u)

/-- two tensors with the same shape and entries. -/
def SameEntries (x x' : Tensor ℝ) : Prop := x.shape = x'.shape ∧ ∀ i, InB x.shape i → x'.get i = x.get i

end GConv.Spec
