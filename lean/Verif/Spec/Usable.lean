import Verif.Props.Modules

/-! # Which arguments of a premade layer and which inputs fit together

C107 is about layers that are built with the default grids; `Fits` says what remains for the user to get right. -/
namespace GConv.Spec

open Conv

/-- The channels can be split into groups, the geometry `ax` is the one the arguments ask for (`nd` axes), `'same'` is only used with
stride 1, and a kernel fits into the padded extents `S` of the input. -/
structure Fits (nd inC outC groups kernelSize : ℕ) (c : ConvOpts) (mode : F.CPad) (ax : List Axis) (S : List ℕ) : Prop where
  input : 0 < inC
  output : 0 < outC
  groups : 0 < groups ∧ groups ∣ inC ∧ groups ∣ outC
  geometry : AsksFor nd kernelSize c.stride c.dilation c.padding c.paddingMode mode ax
  unit : c.padding = .str "same" → c.stride = 1
  extents : GeomOk mode ax S

/-- The grid handed back: the chosen grid, every element moved by the drawn one if `permute_output_grid` is set. -/
def Returned {G : Type} (permute : Bool) (move : G → G) (H Hc : Tensor G) : Prop :=
  Hc.shape = H.shape ∧ ∀ i, Hc.get i = if permute then move (H.get i) else H.get i

end GConv.Spec
