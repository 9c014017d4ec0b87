import Verif.Torch.Spatial

/-! # What a convolution layer should compute

Positions are integer vectors relative to the unpadded signal; the signal is extended beyond its
borders according to the padding mode. -/

namespace GConv.Spec

open Tensor

/-- sum of `f` over all multi-indices of a box. -/
def sumBox (s : List ℕ) (f : List ℕ → ℝ) : ℝ := ((allIdx s).map f).sum

/-- which cell of a signal of extents `S` is found at integer position `p` (`none`: zero padding). -/
def cellAt (mode : F.CPad) : List ℕ → List ℤ → Option (List ℕ)
  | s :: S, p :: P =>
    match F.padIdx mode s p, cellAt mode S P with
    | some j, some js => some (j :: js)
    | _, _ => none
  | _, _ => some []

/-- the extended signal at integer position `p`. -/
def extended (mode : F.CPad) (S : List ℕ) (f : List ℕ → ℝ) (p : List ℤ) : ℝ :=
  match cellAt mode S p with
  | some q => f q
  | none => 0

/-- geometry of a convolution: per axis kernel extent, stride, dilation and the numbers of cells padded
on the left and on the right. -/
structure Axis where
  k : ℕ
  stride : ℕ
  dil : ℕ
  left : ℕ
  right : ℕ

namespace Axis

/-- the (dilated) kernel covers this many cells. -/
def span (a : Axis) : ℕ := a.dil * (a.k - 1) + 1

/-- extent of the output. -/
def out (a : Axis) (s : ℕ) : ℕ := (s + a.left + a.right - a.span) / a.stride + 1

/-- position read by output cell `o` and kernel cell `k`. -/
def pos (a : Axis) (o k : ℕ) : ℤ := (o * a.stride + k * a.dil : ℤ) - a.left

/-- The geometry makes sense for a signal of extent `s`: positive stride, dilation and kernel, the kernel
fits into the padded signal, and the padding mode admits this amount of padding. -/
def Ok (a : Axis) (mode : F.CPad) (s : ℕ) : Prop :=
  0 < a.k ∧ 0 < a.stride ∧ 0 < a.dil ∧ a.span ≤ s + a.left + a.right ∧
    F.padAllowed mode s a.left a.right = true

end Axis

/-- kernel extents. -/
def kernelDims (ax : List Axis) : List ℕ := ax.map Axis.k

/-- output extents. -/
def outDims (ax : List Axis) (S : List ℕ) : List ℕ := List.zipWith Axis.out ax S

/-- position read by output cell `o` and kernel cell `k`. -/
def readPos : List Axis → List ℕ → List ℕ → List ℤ
  | a :: ax, o :: os, k :: ks => a.pos o k :: readPos ax os ks
  | _, _, _ => []

/-- the geometry is admissible for a signal of extents `S`. -/
def GeomOk (mode : F.CPad) (ax : List Axis) (S : List ℕ) : Prop :=
  List.Forall₂ (fun a s => a.Ok mode s) ax S

/-- cross-correlation of one channel `f` (extents `S`) with one kernel `w` at output cell `o`. -/
def corr (mode : F.CPad) (ax : List Axis) (S : List ℕ) (f w : List ℕ → ℝ) (o : List ℕ) : ℝ :=
  sumBox (kernelDims ax) fun k => extended mode S f (readPos ax o k) * w k

/-- first input channel of the channel group that output channel `co` belongs to. -/
def groupStart (inC outC groups co : ℕ) : ℕ := co / (outC / groups) * (inC / groups)

end GConv.Spec
