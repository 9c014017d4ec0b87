import Verif.Spec.Conv
import Verif.Model.GConv
import Mathlib.Algebra.BigOperators.Group.Finset.Basic

/-! # Which geometry a layer configuration asks for -/

namespace GConv.Spec

open Conv

/-- the four padding modes. -/
def PadModeName (s : String) (m : F.CPad) : Prop :=
  (s = "zeros" ∧ m = .zeros) ∨ (s = "reflect" ∧ m = .reflect) ∨ (s = "replicate" ∧ m = .replicate) ∨
    (s = "circular" ∧ m = .circular)

/-- The padding asked for by the argument `padding`: `'same'` pads `dilation * (k - 1)` cells in total,
half of them (rounded down) on the left; `'valid'` pads nothing; an integer is used on both sides of every
axis, a tuple gives one number per axis. -/
def PadsAs (padding : PadArg) (ax : List Axis) : Prop :=
  match padding with
  | .str s => (s = "same" ∧ ∀ a ∈ ax, a.left = a.dil * (a.k - 1) / 2 ∧ a.left + a.right = a.dil * (a.k - 1)) ∨
      (s = "valid" ∧ ∀ a ∈ ax, a.left = 0 ∧ a.right = 0)
  | .int p => ∀ a ∈ ax, a.left = p ∧ a.right = p
  | .tuple l => l = ax.map Axis.left ∧ l = ax.map Axis.right

/-- The configuration `a` asks for the convolution geometry `ax` (one entry per spatial axis) and padding
mode `mode`. -/
structure HasGeometry (a : Args) (mode : F.CPad) (ax : List Axis) : Prop where
  rank : (a.convMode = "2d" ∧ ax.length = 2) ∨ (a.convMode = "3d" ∧ ax.length = 3)
  kernel : a.kernelSize = kernelDims ax
  stride : a.stride = .tuple (ax.map Axis.stride)
  dilation : a.dilation = .tuple (ax.map Axis.dil)
  padding : PadsAs a.padding ax
  mode : PadModeName a.paddingMode mode

/-- The bias parameter has shape `(out_channels, 1, ..., 1)` with one `1` for the group axis and each of the
`nd` spatial axes, or there is none. -/
def BiasShape (bias : Option (Tensor ℝ)) (outC nd : ℕ) : Prop :=
  ∀ b, bias = some b → b.shape = outC :: List.replicate (nd + 1) 1

/-- what the bias adds to output channel `co`. -/
def biasAt (bias : Option (Tensor ℝ)) (nd co : ℕ) : ℝ :=
  match bias with
  | none => 0
  | some b => b.get (co :: List.replicate (nd + 1) 0)

/-- The lifting convolution: output channel `co`, group element `h`, output cell `o` of batch element `b`. -/
noncomputable def liftingConv (a : Args) (mode : F.CPad) (ax : List Axis) (S : List ℕ) (input w : Tensor ℝ)
    (bias : Option (Tensor ℝ)) (b co h : ℕ) (o : List ℕ) : ℝ :=
  (∑ ci ∈ Finset.range (a.inC / a.groups.toNat),
    corr mode ax S (fun q => input.get (b :: (groupStart a.inC a.outC a.groups.toNat co + ci) :: q))
      (fun k => w.get (co :: h :: ci :: k)) o) + biasAt bias ax.length co

/-- The group convolution: additionally summed over the `m` input group elements. -/
noncomputable def groupConv (a : Args) (mode : F.CPad) (ax : List Axis) (S : List ℕ) (input w : Tensor ℝ)
    (bias : Option (Tensor ℝ)) (m b co h : ℕ) (o : List ℕ) : ℝ :=
  (∑ ci ∈ Finset.range (a.inC / a.groups.toNat), ∑ i ∈ Finset.range m,
    corr mode ax S (fun q => input.get (b :: (groupStart a.inC a.outC a.groups.toNat co + ci) :: i :: q))
      (fun k => w.get (co :: h :: ci :: i :: k)) o) + biasAt bias ax.length co

/-- The pointwise group convolution: mixes channels and group elements, cell by cell. -/
noncomputable def pointwiseGroupConv (a : Args) (nd : ℕ) (input wH : Tensor ℝ) (m b co h : ℕ) (q : List ℕ) : ℝ :=
  ∑ ci ∈ Finset.range (a.inC / a.groups.toNat), ∑ i ∈ Finset.range m,
    input.get (b :: (groupStart a.inC a.outC a.groups.toNat co + ci) :: i :: q) *
      wH.get (co :: h :: ci :: i :: List.replicate nd 0)

/-- The separable convolution: a pointwise group convolution followed by one spatial convolution of every
channel and group element on its own (depthwise). -/
noncomputable def separableConv (a : Args) (mode : F.CPad) (ax : List Axis) (S : List ℕ) (input wH w : Tensor ℝ)
    (bias : Option (Tensor ℝ)) (m b co h : ℕ) (o : List ℕ) : ℝ :=
  corr mode ax S (pointwiseGroupConv a ax.length input wH m b co h) (fun k => w.get (co :: h :: 0 :: k)) o +
    biasAt bias ax.length co

end GConv.Spec
