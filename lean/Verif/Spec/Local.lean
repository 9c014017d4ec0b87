import Verif.Spec.Conv

/-! # Which inputs an output of a convolution may depend on -/

namespace GConv.Spec

open Tensor

/-- output cell `o` sees input cell `q`: some kernel cell lies over `q` (after padding by the mode). -/
def Sees (mode : F.CPad) (ax : List Axis) (S o q : List ℕ) : Prop :=
  ∃ k, InB (kernelDims ax) k ∧ cellAt mode S (readPos ax o k) = some q

/-- input channel `c` belongs to the channel group of output channel `co`: the channels are divided into `groups`
blocks of equal length on both sides. -/
def SameGroup (inC outC groups co c : ℕ) : Prop :=
  groupStart inC outC groups co ≤ c ∧ c < groupStart inC outC groups co + inC / groups

/-- per axis: cell `q` lies in the window of output cell `o`, which starts at `o * stride - left` and has the length of
the dilated kernel; and the distance to the start is a multiple of the dilation. -/
def InWindow (a : Axis) (o q : ℕ) : Prop :=
  ∃ j < a.k, q + a.left = o * a.stride + j * a.dil

end GConv.Spec
