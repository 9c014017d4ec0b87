import Verif.Torch.Tensor
import Mathlib.MeasureTheory.Integral.IntervalIntegral.Basic

/-!
# Reductions, pooling, normalisation and activations of torch

Meanings assumed for library functions (trusted base, DESIGN.md §3), written after the torch documentation.
Reals cannot be `nan` or infinite: the mean of no entries and the maximum over an empty pooling window have
junk values here, and no theorem speaks about them.
-/

namespace GConv

open Tensor

namespace Tensor

/-- `t.flatten(a, b)`: axes `a` to `b` (inclusive) become one; IndexError when one of them does not exist. -/
def flatten {α : Type} (t : Tensor α) (a b : ℕ) : Except PyErr (Tensor α) :=
  if b < t.shape.length then
    t.view (t.shape.take a ++ [((t.shape.drop a).take (b + 1 - a)).prod] ++ t.shape.drop (b + 1))
  else .error .indexError

/-- `t.flatten(a, -1)`. -/
def flattenFrom {α : Type} (t : Tensor α) (a : ℕ) : Except PyErr (Tensor α) :=
  if a < t.shape.length then t.view (t.shape.take a ++ [(t.shape.drop a).prod]) else .error .indexError

/-- the entries of `t` along axis `a`, at the index `idx` of the other axes. -/
def along {α : Type} (t : Tensor α) (a : ℕ) (idx : List ℕ) : List α :=
  (List.range (t.shape.getD a 0)).map fun i => t.get (idx.take a ++ [i] ++ idx.drop a)

/-- `t.mean(dim=a)`; IndexError when the axis does not exist. -/
noncomputable def meanDim (t : Tensor ℝ) (a : ℕ) : Except PyErr (Tensor ℝ) :=
  if a < t.shape.length then
    .ok ⟨t.shape.eraseIdx a, fun idx => (t.along a idx).sum / (t.shape.getD a 0 : ℝ)⟩
  else .error .indexError

/-- `t.max(dim=a)` is a pair: the maxima and the (first) positions where they are found.  IndexError when the
axis does not exist or has extent 0. -/
noncomputable def maxDim (t : Tensor ℝ) (a : ℕ) : Except PyErr (Tensor ℝ × Tensor ℕ) :=
  if 0 < t.shape.getD a 0 then
    .ok (⟨t.shape.eraseIdx a, fun idx => (t.along a idx).getD (argmax (t.along a idx)) 0⟩,
      ⟨t.shape.eraseIdx a, fun idx => argmax (t.along a idx)⟩)
  else .error .indexError

/-- `keepdim=True`: the reduced last axis stays with extent 1. -/
def keepLast {α : Type} (t : Tensor α) : Tensor α := ⟨t.shape ++ [1], fun idx => t.get idx.dropLast⟩

end Tensor

namespace F

/-- arguments of a pooling module along one axis. -/
structure PoolAxis where
  k : ℕ
  stride : ℕ
  pad : ℕ := 0
  dil : ℕ := 1

/-- output extent of a pooling module with `ceil_mode=False`; `none`: rejected (zero extents, too much padding
or nothing left). -/
def PoolAxis.out (a : PoolAxis) (s : ℕ) : Option ℕ :=
  if 0 < a.k ∧ 0 < a.stride ∧ 0 < a.dil ∧ 0 < s ∧ a.pad ≤ a.k / 2 ∧ a.dil * (a.k - 1) + 1 ≤ s + 2 * a.pad then
    some ((s + 2 * a.pad - (a.dil * (a.k - 1) + 1)) / a.stride + 1)
  else none

/-- the cells inside the signal that the window of output cell `o` covers. -/
def PoolAxis.window (a : PoolAxis) (s o : ℕ) : List ℕ :=
  (List.range a.k).filterMap fun j =>
    if a.pad ≤ o * a.stride + a.dil * j ∧ o * a.stride + a.dil * j - a.pad < s then
      some (o * a.stride + a.dil * j - a.pad) else none

/-- the number of cells of the window that lie in the padded signal (`count_include_pad=True`). -/
def PoolAxis.size (a : PoolAxis) (s o : ℕ) : ℕ := min (o * a.stride + a.k) (s + 2 * a.pad) - o * a.stride

/-- cells of a window in several dimensions. -/
def windows : List (List ℕ) → List (List ℕ)
  | [] => [[]]
  | w :: ws => w.flatMap fun i => (windows ws).map (i :: ·)

/-- a pooling operation on the spatial axes. -/
inductive Pool
  /-- `nn.MaxPool2d` / `nn.MaxPool3d` (`ceil_mode=False`, `return_indices=False`) -/
  | max (ax : List PoolAxis)
  /-- `nn.AvgPool2d` / `nn.AvgPool3d` (`ceil_mode=False`, `count_include_pad=True`, no `divisor_override`) -/
  | avg (ax : List PoolAxis)
  /-- `nn.AdaptiveMaxPool2d` / `3d` with the given output extents -/
  | adaptiveMax (out : List ℕ)
  /-- `nn.AdaptiveAvgPool2d` / `3d` -/
  | adaptiveAvg (out : List ℕ)

/-- cells `⌊o s / n⌋ .. ⌈(o+1) s / n⌉ - 1` of adaptive pooling. -/
def adaptiveWindow (s n o : ℕ) : List ℕ :=
  (List.range s).filter fun j => o * s / n ≤ j ∧ j < ((o + 1) * s + n - 1) / n

namespace Pool

/-- number of spatial axes. -/
def rank : Pool → ℕ
  | .max ax => ax.length
  | .avg ax => ax.length
  | .adaptiveMax out => out.length
  | .adaptiveAvg out => out.length

/-- output extents for spatial extents `S` (of the right number). -/
def outDims (S : List ℕ) : Pool → Option (List ℕ)
  | .max ax => (List.zipWith PoolAxis.out ax S).mapM id
  | .avg ax => (List.zipWith PoolAxis.out ax S).mapM id
  | .adaptiveMax out => if S.all (0 < ·) then some out else none
  | .adaptiveAvg out => if S.all (0 < ·) then some out else none

/-- the cells over which output cell `o` is reduced. -/
def cells (S o : List ℕ) : Pool → List (List ℕ)
  | .max ax => windows (List.zipWith (fun (f : ℕ → List ℕ) i => f i) (List.zipWith (fun a s => a.window s) ax S) o)
  | .avg ax => windows (List.zipWith (fun (f : ℕ → List ℕ) i => f i) (List.zipWith (fun a s => a.window s) ax S) o)
  | .adaptiveMax out => windows (List.zipWith (fun (f : ℕ → List ℕ) i => f i) (List.zipWith adaptiveWindow S out) o)
  | .adaptiveAvg out => windows (List.zipWith (fun (f : ℕ → List ℕ) i => f i) (List.zipWith adaptiveWindow S out) o)

/-- the value of output cell `o` for the channel `f`. -/
noncomputable def value (S o : List ℕ) (f : List ℕ → ℝ) (p : Pool) : ℝ :=
  let v := (p.cells S o).map f
  match p with
  | .max _ => v.getD (argmax v) 0
  | .adaptiveMax _ => v.getD (argmax v) 0
  | .avg ax => v.sum / ((List.zipWith (fun (f : ℕ → ℕ) i => f i) (List.zipWith (fun a s => a.size s) ax S) o).prod : ℝ)
  | .adaptiveAvg _ => v.sum / (v.length : ℝ)

/-- the pooling module applied to a tensor `(N, C, *S)` or `(C, *S)`; RuntimeError for every other number of
axes, for no channels and for extents that do not fit. -/
noncomputable def apply (p : Pool) (t : Tensor ℝ) : Except PyErr (Tensor ℝ) :=
  let lead := t.shape.length - p.rank
  if (t.shape.length = p.rank + 1 ∨ t.shape.length = p.rank + 2) ∧ 0 < t.shape.getD (lead - 1) 0 then
    match p.outDims (t.shape.drop lead) with
    | some O => .ok ⟨t.shape.take lead ++ O,
        fun idx => p.value (t.shape.drop lead) (idx.drop lead) fun q => t.get (idx.take lead ++ q)⟩
    | none => .error .runtimeError
  else .error .runtimeError

end Pool

/-! ## Normalisation -/

/-- sum over a box. -/
def total (s : List ℕ) (f : List ℕ → ℝ) : ℝ := ((allIdx s).map f).sum

/-- mean and biased variance of the values `f` on the box `s`. -/
noncomputable def boxMean (s : List ℕ) (f : List ℕ → ℝ) : ℝ := total s f / (s.prod : ℝ)
noncomputable def boxVar (s : List ℕ) (f : List ℕ → ℝ) : ℝ := total s (fun i => (f i - boxMean s f) ^ 2) / (s.prod : ℝ)
/-- the unbiased variance that goes into the running statistics. -/
noncomputable def boxVarUnbiased (s : List ℕ) (f : List ℕ → ℝ) : ℝ :=
  total s (fun i => (f i - boxMean s f) ^ 2) / ((s.prod : ℝ) - 1)

/-- one channel of a batch: `i = b :: q` is batch element and position. -/
def channel (t : Tensor ℝ) (c : ℕ) (i : List ℕ) : ℝ := t.get (i.headD 0 :: c :: i.tail)

/-- `(x - mean) / sqrt(var + eps) * weight + bias`. -/
noncomputable def standardise (eps mean var weight bias x : ℝ) : ℝ := (x - mean) / Real.sqrt (var + eps) * weight + bias

/-- running statistics of a normalisation module. -/
structure Running where
  mean : ℕ → ℝ
  var : ℕ → ℝ
  /-- `num_batches_tracked` -/
  count : ℕ

/-- constructor arguments and parameters of `nn.BatchNormNd` / `nn.InstanceNormNd`; `weight` and `bias` are
constant `1` and `0` when `affine=False`. -/
structure NormArgs where
  features : ℕ
  eps : ℝ
  /-- `None`: cumulative average -/
  momentum : Option ℝ
  affine : Bool
  track : Bool
  weight : ℕ → ℝ
  bias : ℕ → ℝ

namespace NormArgs

noncomputable def scale (a : NormArgs) (c : ℕ) : ℝ := if a.affine then a.weight c else 1
noncomputable def shift (a : NormArgs) (c : ℕ) : ℝ := if a.affine then a.bias c else 0

end NormArgs

/-- `exponential_average_factor` of `nn.BatchNormNd` in training mode, after `num_batches_tracked` is raised to
`count`. -/
noncomputable def averageFactor (a : NormArgs) (count : ℕ) : ℝ :=
  match a.momentum with
  | some m => m
  | none => 1 / (count : ℝ)

/-- running statistics after one more batch with the given means and (unbiased) variances. -/
noncomputable def Running.update (r : Running) (f : ℝ) (mean var : ℕ → ℝ) : Running :=
  ⟨fun c => (1 - f) * r.mean c + f * mean c, fun c => (1 - f) * r.var c + f * var c, r.count + 1⟩

/-- `nn.BatchNormNd.forward` for inputs `(N, C, *s)` with `nd = s.length` spatial axes: the output and the state
afterwards.  ValueError for a wrong number of axes and for one value per channel in training; RuntimeError when
the number of channels does not fit the parameters or running statistics.  (The state after an exception is not
modelled.) -/
noncomputable def batchNorm (nd : ℕ) (a : NormArgs) (training : Bool) (r : Running) (t : Tensor ℝ) :
    Except PyErr (Tensor ℝ × Running) :=
  match t.shape with
  | N :: C :: s =>
    if s.length ≠ nd then .error .valueError
    else if training ∨ ¬ a.track then
      if N * s.prod = 1 then .error .valueError
      else if (a.affine ∨ a.track) ∧ C ≠ a.features then .error .runtimeError
      else
        let mean := fun c => boxMean (N :: s) (channel t c)
        let var := fun c => boxVar (N :: s) (channel t c)
        .ok (⟨t.shape, fun idx =>
            standardise a.eps (mean (idx.getD 1 0)) (var (idx.getD 1 0)) (a.scale (idx.getD 1 0)) (a.shift (idx.getD 1 0))
              (t.get idx)⟩,
          if training ∧ a.track then
            r.update (averageFactor a (r.count + 1)) mean (fun c => boxVarUnbiased (N :: s) (channel t c))
          else r)
    else if C ≠ a.features then .error .runtimeError
    else .ok (⟨t.shape, fun idx =>
        standardise a.eps (r.mean (idx.getD 1 0)) (r.var (idx.getD 1 0)) (a.scale (idx.getD 1 0)) (a.shift (idx.getD 1 0))
          (t.get idx)⟩, r)
  | _ => .error .valueError

/-- one channel of one instance. -/
def instChannel (t : Tensor ℝ) (b c : ℕ) (q : List ℕ) : ℝ := t.get (b :: c :: q)

/-- `nn.InstanceNormNd.forward` for inputs `(N, C, *s)`: every channel of every instance is standardised on its
own.  ValueError for a wrong number of axes and for one position when the input statistics are used; a number of
channels that does not fit is a ValueError for `affine` modules and a RuntimeError when running statistics are
used. -/
noncomputable def instanceNormBatched (nd : ℕ) (a : NormArgs) (training : Bool) (r : Running) (t : Tensor ℝ) :
    Except PyErr (Tensor ℝ × Running) :=
  match t.shape with
  | N :: C :: s =>
    if s.length ≠ nd then .error .valueError
    else if a.affine ∧ C ≠ a.features then .error .valueError
    else if training ∨ ¬ a.track then
      if s.prod = 1 then .error .valueError
      else if a.track ∧ C ≠ a.features then .error .runtimeError
      else
        let mean := fun b c => boxMean s (instChannel t b c)
        let var := fun b c => boxVar s (instChannel t b c)
        .ok (⟨t.shape, fun idx =>
            standardise a.eps (mean (idx.getD 0 0) (idx.getD 1 0)) (var (idx.getD 0 0) (idx.getD 1 0))
              (a.scale (idx.getD 1 0)) (a.shift (idx.getD 1 0)) (t.get idx)⟩,
          if training ∧ a.track then
            { r.update (a.momentum.getD 0) (fun c => boxMean [N] fun i => mean (i.headD 0) c)
                (fun c => boxMean [N] fun i => boxVarUnbiased s (instChannel t (i.headD 0) c)) with count := r.count }
          else r)
    else if C ≠ a.features then .error .runtimeError
    else .ok (⟨t.shape, fun idx =>
        standardise a.eps (r.mean (idx.getD 1 0)) (r.var (idx.getD 1 0)) (a.scale (idx.getD 1 0)) (a.shift (idx.getD 1 0))
          (t.get idx)⟩, r)
  | _ => .error .valueError

/-- `nn.InstanceNormNd.forward`: inputs `(C, *s)` are treated as a batch of one. -/
noncomputable def instanceNorm (nd : ℕ) (a : NormArgs) (training : Bool) (r : Running) (t : Tensor ℝ) :
    Except PyErr (Tensor ℝ × Running) :=
  if t.shape.length = nd + 1 then do
    let y ← instanceNormBatched nd a training r ⟨1 :: t.shape, fun idx => t.get idx.tail⟩
    return (⟨t.shape, fun idx => y.1.get (0 :: idx)⟩, y.2)
  else instanceNormBatched nd a training r t

/-- `nn.LayerNorm(normalized_shape)`: standardises the trailing axes, whose extents must be `normalized_shape`
(RuntimeError otherwise); `weight` and `bias` have that shape (constant `1`, `0` if not affine). -/
noncomputable def layerNorm (shape : List ℕ) (eps : ℝ) (weight bias : List ℕ → ℝ) (t : Tensor ℝ) :
    Except PyErr (Tensor ℝ) :=
  let lead := t.shape.length - shape.length
  if t.shape.drop lead = shape then
    .ok ⟨t.shape, fun idx =>
      let f := fun q => t.get (idx.take lead ++ q)
      standardise eps (boxMean shape f) (boxVar shape f) (weight (idx.drop lead)) (bias (idx.drop lead)) (t.get idx)⟩
  else .error .runtimeError

/-! ## Activations -/

/-- `nn.ReLU`. -/
noncomputable def relu (x : ℝ) : ℝ := max 0 x

/-- `nn.LeakyReLU(negative_slope)`. -/
noncomputable def leakyRelu (slope x : ℝ) : ℝ := max 0 x + slope * min 0 x

/-- the error function. -/
noncomputable def erf (x : ℝ) : ℝ := 2 / Real.sqrt Real.pi * ∫ t in (0 : ℝ)..x, Real.exp (-t ^ 2)

/-- `nn.GELU(approximate='none')`: `x * Φ(x)`. -/
noncomputable def gelu (x : ℝ) : ℝ := x * ((1 + erf (x / Real.sqrt 2)) / 2)

/-- `nn.GELU(approximate='tanh')`. -/
noncomputable def geluTanh (x : ℝ) : ℝ :=
  x * ((1 + Real.tanh (Real.sqrt (2 / Real.pi) * (x + 0.044715 * x ^ 3))) / 2)

end F
end GConv
