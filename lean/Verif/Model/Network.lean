import Verif.Model.Modules
import Verif.Model.Normalization
import Verif.Model.Activations
import Verif.Model.Pooling

/-! # Model of a forward pass through a chain of layers

`x, H = layer(x, H)` for one layer after the other, as in README.md:20-34 (`x2, H1 = lifting_layer(x1)`,
`x3, H2 = gconv_layer(x2, H1)`). -/

namespace GConv.Net

open Tensor Conv F

/-- one layer of the chain with its parameters. For the convolutions `move` is multiplication by the random element
drawn in this pass (used only if `permute_output_grid`). -/
inductive Block (G : Type) (d : ℕ)
  /-- `GReLU`, `GGELU`, `GLeakyReLU` -/
  | act (a : Activations.Act)
  /-- `GBatchNorm2d`, `GBatchNorm3d` -/
  | batch (a : NormArgs) (training : Bool) (r : Running)
  /-- `GInstanceNorm2d`, `GInstanceNorm3d` -/
  | inst (a : NormArgs) (training : Bool) (r : Running)
  /-- `GConvSE2`, `GConvSE3`, called without `out_H` -/
  | groupSE (M : Module G d) (move : G → G) (weight : Tensor ℝ) (bias : Option (Tensor ℝ))
  /-- `GSeparableConvSE2`, `GSeparableConvSE3`, called without `out_H` -/
  | separableSE (M : Module G d) (move : G → G) (weightH weight : Tensor ℝ) (bias : Option (Tensor ℝ))
  /-- `GConvE2`, `GConvE3`, called without `out_H` -/
  | groupE (M : Module G d) (move : G → G) (weight : Tensor ℝ) (bias : Option (Tensor ℝ))
  /-- `GSeparableConvE2`, `GSeparableConvE3`, called without `out_H` -/
  | separableE (M : Module G d) (move : G → G) (weightH weight : Tensor ℝ) (bias : Option (Tensor ℝ))

variable {G : Type} {d : ℕ}

/-- `layer(x, H)`; the new running statistics of normalisation layers are dropped (one forward pass). -/
noncomputable def Block.call : Block G d → Tensor ℝ → Tensor G → Except PyErr (Tensor ℝ × Tensor G)
  | .act a, x, H => a.forward x H
  | .batch a t r, x, H => (Normalization.batch d a t r x H).map Prod.fst
  | .inst a t r, x, H => (Normalization.inst d a t r x H).map Prod.fst
  | .groupSE M move weight bias, x, H => M.groupSE move weight bias x H none
  | .separableSE M move weightH weight bias, x, H => M.separableSE move weightH weight bias x H none
  | .groupE M move weight bias, x, H => M.groupE move weight bias x H none
  | .separableE M move weightH weight bias, x, H => M.separableE move weightH weight bias x H none

/-- the layers of `bs` in order. -/
noncomputable def run : List (Block G d) → Tensor ℝ × Tensor G → Except PyErr (Tensor ℝ × Tensor G)
  | [], xH => .ok xH
  | b :: bs, xH => do
    let yH ← b.call xH.1 xH.2
    run bs yH

/-- the layer in a pass in which the random element drawn by it acts by `m` (gconv_se2.py:80-91, 173-184, 266-276 and the
corresponding lines of the SE(3), E(2), E(3) modules); layers without randomness are unchanged. -/
def Block.draw (m : G → G) : Block G d → Block G d
  | .groupSE M _ weight bias => .groupSE M m weight bias
  | .separableSE M _ weightH weight bias => .separableSE M m weightH weight bias
  | .groupE M _ weight bias => .groupE M m weight bias
  | .separableE M _ weightH weight bias => .separableE M m weightH weight bias
  | b => b

/-- the layers of a pass in which layer `i` draws the `i`-th element of the list (layers that do not draw ignore it). -/
def drawn {Ω : Type} (move : Ω → G → G) : List (Block G d) → List Ω → List (Block G d)
  | b :: bs, u :: us => b.draw (move u) :: drawn move bs us
  | bs, _ => bs

/-- the numbers a pooling module returns (for `torch.max` the maxima). -/
def values : Pooling.Result → Tensor ℝ
  | .tensor t => t
  | .pair v _ => v

/-- `GAvgGlobalPool` (pooling.py:70-76) applied to what the last layer returned. -/
noncomputable def avgPooled (yH : Tensor ℝ × Tensor G) : Except PyErr (Tensor ℝ) := (Pooling.avgGlobal yH.1).map values

/-- `GMaxGlobalPool` (pooling.py:34-40): the maxima. -/
noncomputable def maxPooled (yH : Tensor ℝ × Tensor G) : Except PyErr (Tensor ℝ) := (Pooling.maxGlobal yH.1).map values

end GConv.Net
