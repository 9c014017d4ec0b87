# Formal model of gconv (ThijsKuipers1995/gconv) in Lean 4

## 1. What is modelled and how

The code is Python/PyTorch. The model is a shallow embedding in Lean 4 + Mathlib, function by
function, every definition citing file and lines in `/repo`.

* **Numbers.** `torch` floats are modelled as exact real numbers (`ℝ`). Clamps, eps masks and wrap
  steps that the code performs explicitly are modelled; IEEE rounding, NaN/inf, dtypes are not. A division by zero, which gives NaN or inf in
  torch, gives 0 here; it can occur only for an explicit zero width passed to a `grid_sample`, barycentric weights that sum to zero, and
  normalisation with `var + eps = 0`.
  Literal tables (`_grid_cache.py`, the polyhedral groups) are transcribed exactly as scaled integers.
* **Tensors.** `Tensor α` = a shape (`List Nat`) and an index function (`List Nat → α`), with
  row-major `view/reshape`, `transpose`, `repeat`, `repeat_interleave`, broadcasting, each written
  as torch documents it; failing calls return `Except.error`. Two trailing encodings are folded:
  the components of one group element / one R^n vector are one entry of type `G` / `V`
  (so `view(-1,*H_dims)` is a view of the leading axes).
* **Exceptions** are values of `PyErr` in `Except`.
* **Random draws** (`torch.rand`, `torch.randn`) are explicit arguments; theorems quantify over them. For C78 and C79 the draws get
  the law torch documents: independent uniform on [0,1) and independent standard normal (`Spec/Random.lean`).
* **State** (the grid cache, in-place repulsion) is an explicit state passed and returned.
* **Files**: `Verif/Torch/*` (torch primitives the code calls), `Verif/Model/*` (the repo's functions),
  `Verif/Spec/*` (specifications independent of the model), `Verif/Lemmas/*` (helper proofs),
  `Verif/Props/*` (the property theorems, each with a non-vacuity example).

## 2. Trusted base

* Lean 4.33.0 kernel; Mathlib definitions used in statements (reals, `Real.cos/sin/arccos/exp/log`,
  `Complex.arg`, `Matrix`, finite sums).
* Axioms: at most `propext`, `Classical.choice`, `Quot.sound` (checked with `#print axioms`, see
  `tools/axioms.sh`). No `native_decide`, no `bv_decide`, no own axioms.
* The reading of the Python source and of the torch primitives listed in §3.

## 3. Torch primitives assumed (modelled in `Verif/Torch`)

`linspace`, python/torch `%` (floor remainder), `clamp`, `acos`, `atan2` (= `Complex.arg (x + y i)`),
`argmax` (first maximum), `argsort`/`sort` (ascending), `topk(k=1,largest=False)` (an index of a minimum),
`where`, advanced indexing, `cat`/`stack`/`hstack`, `meshgrid`, `matmul` with broadcasting,
`linalg.solve` (inverse, error when singular), `F.grid_sample` (bilinear/nearest, border/zeros,
`align_corners=False`), `F.conv2d/3d` (cross-correlation, groups, stride, zero padding, `'same'`/`'valid'`),
`F.pad`, `view/reshape/transpose/repeat/repeat_interleave`, broadcasting arithmetic; `flatten`, `mean`, `max`,
`nn.MaxPool/AvgPool/AdaptiveMaxPool/AdaptiveAvgPool`, `nn.BatchNorm/InstanceNorm/LayerNorm` (with running statistics),
`nn.ReLU/LeakyReLU/GELU` (`Torch/NN.lean`); strides and `computeStride` (`Torch/Strided.lean`); `torch.nn.init.kaiming_uniform_/kaiming_normal_` (fan_in, leaky_relu), `linalg.lstsq` (a minimiser), `topk(k=2)`, `topk(k=3)`; `nn.Module.__setattr__`/`__call__` before
`Module.__init__` (AttributeError).

## 4. Not modelled

Floating point rounding (all tensors hold real numbers; the rounding of convolutions is bounded in C115, in the standard model without overflow and underflow, and its propagation through networks in C116; that of the filters' sampling is the parameter eta there); autograd and the optimiser's numerics (gradients are parameters of the repulsion model);
CUDA/devices; dtype promotion; tensor contiguity errors of `view` outside C102 (the convolution and normalisation layers);
the text of the keyword dictionaries in the kernels' `extra_repr`; progress bars; `torch.jit`; the printing and plotting of the notebook and its first example (the README program, C99; its other cells are modelled, C101); test files; matplotlib import in `gconv.py`.

