# Formal model of gconv (ThijsKuipers1995/gconv) in Lean 4

## 1. What is modelled and how

The code is Python/PyTorch. The model is a shallow embedding in Lean 4 + Mathlib, function by
function, every definition citing file and lines in `/repo`.

* **Numbers.** `torch` floats are modelled as exact real numbers (`ℝ`). Clamps, eps masks and wrap
  steps that the code performs explicitly are modelled; IEEE rounding, NaN/inf, dtypes are not. A division by zero, which gives NaN or inf in
  torch, gives 0 here; it can occur only for an explicit zero width passed to a `grid_sample`, barycentric weights that sum to zero, and
  normalisation with `var + eps = 0`.
  Literal tables (`_grid_cache.py`, the polyhedral groups) are transcribed exactly as scaled integers.
* **Tensors.** `Tensor α` = a shape (`List Nat`) and an index function (`List Nat → α`), with
  row-major `view/reshape`, `transpose`, `repeat`, `repeat_interleave`, broadcasting, each written
  as torch documents it; failing calls return `Except.error`. Two trailing encodings are folded:
  the components of one group element / one R^n vector are one entry of type `G` / `V`
  (so `view(-1,*H_dims)` is a view of the leading axes).
* **Exceptions** are values of `PyErr` in `Except`.
* **Random draws** (`torch.rand`, `torch.randn`) are explicit arguments; theorems quantify over them. For C78 and C79 the draws get
  the law torch documents: independent uniform on [0,1) and independent standard normal (`Spec/Random.lean`).
* **State** (the grid cache, in-place repulsion) is an explicit state passed and returned.
* **Files**: `Verif/Torch/*` (torch primitives the code calls), `Verif/Model/*` (the repo's functions),
  `Verif/Spec/*` (specifications independent of the model), `Verif/Lemmas/*` (helper proofs),
  `Verif/Props/*` (the property theorems, each with a non-vacuity example).

## 2. Trusted base

* Lean 4.33.0 kernel; Mathlib definitions used in statements (reals, `Real.cos/sin/arccos/exp/log`,
  `Complex.arg`, `Matrix`, finite sums).
* Axioms: at most `propext`, `Classical.choice`, `Quot.sound` (checked with `#print axioms`, see
  `tools/axioms.sh`). No `native_decide`, no `bv_decide`, no own axioms.
* The reading of the Python source and of the torch primitives listed in §3.

## 3. Torch primitives assumed (modelled in `Verif/Torch`)

`linspace`, python/torch `%` (floor remainder), `clamp`, `acos`, `atan2` (= `Complex.arg (x + y i)`),
`argmax` (first maximum), `argsort`/`sort` (ascending), `topk(k=1,largest=False)` (an index of a minimum),
`where`, advanced indexing, `cat`/`stack`/`hstack`, `meshgrid`, `matmul` with broadcasting,
`linalg.solve` (inverse, error when singular), `F.grid_sample` (bilinear/nearest, border/zeros,
`align_corners=False`), `F.conv2d/3d` (cross-correlation, groups, stride, zero padding, `'same'`/`'valid'`),
`F.pad`, `view/reshape/transpose/repeat/repeat_interleave`, broadcasting arithmetic; `flatten`, `mean`, `max`,
`nn.MaxPool/AvgPool/AdaptiveMaxPool/AdaptiveAvgPool`, `nn.BatchNorm/InstanceNorm/LayerNorm` (with running statistics),
`nn.ReLU/LeakyReLU/GELU` (`Torch/NN.lean`); strides and `computeStride` (`Torch/Strided.lean`); `torch.nn.init.kaiming_uniform_/kaiming_normal_` (fan_in, leaky_relu), `linalg.lstsq` (a minimiser), `topk(k=2)`, `topk(k=3)`; `nn.Module.__setattr__`/`__call__` before
`Module.__init__` (AttributeError).

## 4. Not modelled

Floating point rounding (all tensors hold real numbers; the rounding of convolutions is bounded in C115, in the standard model without overflow and underflow, and its propagation through networks in C116; that of the filters' sampling is the parameter eta there); autograd and the optimiser's numerics (gradients are parameters of the repulsion model);
CUDA/devices; dtype promotion; tensor contiguity errors of `view` outside C102 (the convolution and normalisation layers);
the text of the keyword dictionaries in the kernels' `extra_repr`; progress bars; `torch.jit`; the printing and plotting of the notebook and its first example (the README program, C99; its other cells are modelled, C101); test files; matplotlib import in `gconv.py`.

## 5. Per-property plan

- **C01 SO(2) angles represent rotations faithfully.** model the four functions over R; trig identities; periodicity of cos/sin through the remainder.
- **C02 SO(2) composition is a normalised group law.** floor-based python remainder; group laws through uniqueness of the representative in [0,2pi).
- **C03 SO(2) uniform grid is the cyclic group of order n.** model torch.linspace and slicing; arithmetic of k/n modulo 1.
- **C04 Random grids only contain valid group elements.** random draws are explicit parameters of the model.
- **C05 SO(2) acts on the plane by isometries.** tensor-level model of the broadcast matmul, pointwise theorem.
- **C06 SO(2) geodesic distance.** cos(a-b) identity, arccos monotone, arccos_cos.
- **C07 SO(2) nearest neighbour distance is the distance to the nearest other element.** The unchanged code violates this (the minimum includes the element itself): prove the value is the constant acos(1-eps) for every grid, and a counterexample; partial.
- **C08 O(2) elements form a group under the API product.** reduce to the SO(2) law and signs.
- **C09 O(2) acts on the plane by isometries compatible with the product.** as for SO(2).
- **C10 O(2) determinant is the determinant of the plane transformation.** violated for every element with coefficient -1 (-R is a rotation in the plane): prove the true determinant is always 1, so det is right exactly for rotations, and (-1,t) acts like (1,t+pi); partial.
- **C11 O(2)/O(3) uniform grids list rotations first.** list model of cat; index lemmas.
- **C12 O(2)/O(3) grid_sample returns rows in the order of the query grid.** model torch.where, cat, argsort, advanced indexing on lists; generic theorem over the row sampler.
- **C13 O(2)/O(3) grid_sample when one coset has no weights.** error branch of the same model.
- **C14 Axis rotation matrices.** entrywise trig identities.
- **C15 Unit quaternions represent rotations.** polynomial identities; the kernel of the double cover by comparing entries.
- **C16 matrix_to_quat inverts quat_to_matrix on all rotations.** model argmax over (diag, trace) with first-maximum; polynomial identities from R R^T=1, det R=1; positivity of the pivot.
- **C17 quat -> matrix -> quat returns the same rotation.** from the two previous properties.
- **C18 Euler angles follow the extrinsic ZYZ convention.** entrywise comparison with matrix_z/matrix_y.
- **C19 matrix_to_euler gives back the rotation.** arccos/atan2 (Complex.arg) model of the scalar path; exact statement plus error bound.
- **C20 matrix_to_euler output ranges.** ranges of arccos and arg; wrap step.
- **C21 Gimbal lock warning.** violated: the code warns iff no element is safe. Prove the exact condition and a mixed-batch counterexample; partial.
- **C22 left_apply_quat computes the quaternion product.** violated: lines 197-199 assign a tuple to a tensor slice and raise TypeError on every input. Prove that no input returns; partial.
- **C23 so3_log is a logarithm.** Rodrigues formula. The property fails at half turns (clamp hides theta==pi; the skew part vanishes): counterexample; partial.
- **C24 quaternion_log.** arccos_cos, norms.
- **C25 SO(3) geodesic distance.** inner-product identity for Hamilton products, trace identity, half-angle formula.
- **C26 SO(3) nearest neighbour distance.** model sort and column selection; second smallest of a row whose own entry is minimal.
- **C27 SO(3) acts on R^3 by rotations.** Mathlib Matrix API.
- **C28 The built-in polyhedral groups are groups of rotations.** tables as integers scaled by 1e8; whole-table kernel computation lifted to statements over the reals.
- **C29 Cyclic subgroups of SO(3).** from C14, C16 and linspace.
- **C30 Grid cache behaves like a write-once map.** state machine with an abstract map spec; refinement by induction on the history.
- **C31 uniform_grid honours its parameterization for every history.** violated: the Euler grid is stored under the requested key before conversion, so the next call returns Euler angles; and cache_grid with 'euler' raises KeyError. Prove the property for histories without cache_grid, the counterexample, and the exact dispatch/ValueError behaviour; partial.
- **C32 Shipped grids are rotations.** tables as integers; whole-table kernel computation. Size 1 'matrix' violates it (a 3x3 tensor instead of 1x3x3): prove it; partial.
- **C33 O(3) elements form a group under the API product.** 10-vectors as Fin 10 -> R with explicit flatten/unflatten; Matrix algebra.
- **C34 O(3) acts on R^3 by isometries and det is the true determinant.** det(cR)=c^3 det R.
- **C35 O(3) uniform grid layout.** list model parameterised by the so3 grid.
- **C36 S2 coordinate round trips.** arccos, Complex.arg.
- **C37 S2 grids embedded in SO(3).** first part proved; neg_gamma always raises (hstack of 1-d and 2-d tensors), unknown strings raise UnboundLocalError only after optimisation; partial.
- **C38 Gaussian RBF.** exp monotone; numeric bound on log 2.
- **C39 RBF interpolation reproduces the signal.** Matrix inverse model of linalg.solve.
- **C40 Nearest neighbour interpolation picks a nearest node.** model topk(k=1, largest=False) as an arbitrary minimiser.
- **C41 Group sampling is left-invariant.** distances are invariant, so all matrices are equal.
- **C42 Unknown sampling modes are rejected.** dispatch model.
- **C43 Barycentric interpolation is a convex combination.** least-squares solution as a parameter; clamp-and-normalise lemma.
- **C44 Repulsion bookkeeping.** heap model with two cells, gradient and noise as parameters; induction on steps.
- **C45 Coulomb energy.** zpow monotonicity.
- **C46 Spatial reference grids.** tensor model of linspace, meshgrid, stack.
- **C47 Spherical mask is a radial, symmetric 0/1 mask.** norm of signed-permuted coordinates.
- **C48 A masked kernel has support.** violated for sizes 1 and 2 (all cells masked, weights and outputs identically 0), proved for all s>=3; partial.
- **C49 Identity group element leaves the kernel unchanged.** violated: align_corners=False unnormalisation of an align_corners=True grid (3D: exact only for sizes <=3 with border padding), and in 2D the axes are swapped (transposed kernel). Prove the exact positive part and counterexamples; partial.
- **C50 Lifting kernel formula.** row-major tensor model with view, repeat, repeat_interleave, broadcasting; index arithmetic.
- **C51 Group kernel formula.** same tensor model.
- **C52 Separable and subgroup kernels pair the right group elements.** holds when |in_H|=|out_H|; for different sizes the view uses swapped extents: prove shape (co,|in|,ci,|out|) and a counterexample; partial.
- **C53 Every group weight parameter is used exactly once.** index bijection (ci*CO+co) -> (q/CI, q%CI); scramble counterexample.
- **C54 mask=False disables the mask.** holds for SE3, E2, E3; violated by the three SE2 kernels; partial.
- **C55 Default sampling width reflects grid density.** proved for SE3; for SE2/E2 the width is the constant 0.8*acos(1-eps); for E3 10-vectors are treated as quaternions: exact value proved and shown different; partial.
- **C56 Group weights depend only on relative group elements.** (g out)^-1 (g in) = out^-1 in in each parameterization.
- **C57 Spatial weights rotate with lattice symmetries.** grid symmetric under signed permutations.
- **C58 Constructor validation.** decision-logic model, iff theorem.
- **C59 'same' padding keeps the spatial size.** model the loop filling the list.
- **C60 Lifting convolution formula.** tensor model of F.conv with groups; view lemmas.
- **C61 Group convolution formula.** same.
- **C62 Separable convolution equals group mixing followed by a depthwise spatial convolution of the same geometry.** holds for stride 1 and padding 0/'valid'/'same'+zeros; violated otherwise (stride and padding are applied twice): size formula and counterexample; partial.
- **C63 Translation equivariance.** window reindexing.
- **C64 Rotation equivariance of the lifting convolution.** kernel rotation property plus reindexing of the conv sum.
- **C65 Rotation equivariance of group and separable convolutions.** same.
- **C66 E(n) convolutions are equivariant to reflections.** violated: dividing by det gives an extra factor det(g) per layer: prove equivariance up to the factor det(g), hence failure for any non-zero output; partial.
- **C67 Pooling over group and space yields invariants.** permutation invariance of sums and maxima; combination with equivariance.
- **C68 Group pools return a tensor.** holds for the averages; the max variants return a (values, indices) pair: modelled result type and proved; partial.
- **C69 Spatial pools keep batch, channel and group axes.** violated: .view(*x.shape[:3]) raises unless the pooled spatial volume is 1, and then drops the spatial axes; exact condition proved; partial.
- **C70 Normalisation layers treat the group axis as spatial.** view round trip and permutation-invariant statistics.
- **C71 Activations act pointwise and pass H through.** pointwise map; GWrap's constructor assigns a submodule before Module.__init__ and always raises: partial.
- **C72 Default grids and output grid permutation.** model of the six forward methods.
- **C73 Convolutions are linear in the input.** linearity of finite sums.
- **C74 The order of the group grid does not matter.** locality of kernel sampling plus the convolution formula; permutation of finite sums.
- **C75 Whole networks are equivariant, pooled outputs invariant.** per-layer equivariance on moved feature maps, induction over the list of layers, invariance of the pool.
- **C76 Running statistics after any history of batches.** induction over the history.
- **C77 Layer normalisation over channel, group and space.** explicit formula; permutation of the normalised positions.
- **C78 Random grids are uniformly distributed.** the generators as measurable maps of the draws (torch.rand uniform on [0,1), torch.randn standard normal, independent); rotation invariance of Lebesgue measure on the circle and of the Gaussian.
- **C79 Freshly constructed layers have centred independent parameters.** model of reset_parameters and of torch.nn.init; laws of affine images of the draws, independence by measurable maps.
- **C80 Outputs are linear in the parameters.** a relation between three runs carried through every tensor operation of the model.
- **C81 Samples of a batch are processed independently.** a relation between two runs carried through every tensor operation; induction over the layers.
- **C82 Receptive field of the convolutions.** two runs of the convolution formulas compared term by term; the zero-padded window in closed form.
- **C83 Geodesic distances are angles and satisfy the triangle inequality.** arccos of a clamped cosine is the clamped angle; triangle inequality of Mathlib's angle.
- **C84 The energy that repulsion minimises.** sorting a row and dropping its first entry removes the distance to itself; sums over pairs.
- **C85 Layers do not share state.** model of tensor identity (which calls return an existing object); ownership invariant over all histories.
- **C86 Saving and restoring a kernel.** model of state_dict/load_state_dict on the constructed kernels; a 25-element counterexample with two widths (diagonally dominant RBF systems).
- **C87 Kernels with default settings can be evaluated.** SO(2): diagonal dominance of the Gaussian matrix; SO(3): verified interval arithmetic on the shipped tables, positive definiteness by LDL certificates checked by the kernel.
- **C88 Stored filters are recovered at the reference elements.** the RBF solution reproduces its data, nearest neighbour returns the element itself when the reference elements are further apart than the distance cut-off.
- **C89 A given reference grid overrides group_kernel_size.** equality of the constructed kernels; for E(n) the sampling system with mismatched sizes.
- **C90 Results depend on group elements, not on the numbers representing them.** all uses of the grids go through the action, the determinant and the products modulo full turns.
- **C91 Resampling never leaves the range of the stored filters.** grid_sample is a convex combination of the taps (sub-convex with zero padding); nearest neighbour picks one stored row; sums bounded term by term.
- **C92 Kernels and layers depend continuously on group elements, parameters and input.** bilinear taps as hat functions, reflection as distance to a lattice; the geodesic distance through the trace; RBF solution by continuity of finite sums.
- **C93 With randomly moved grids, networks are equivariant and invariant in distribution, for every grid.** measure preserving maps of the draws that multiply (or conjugate) the drawn elements, combined with the equivariance of C75 pass by pass.
- **C94 On the torus, networks commute with cyclic shifts.** circular convolution as a sum over the torus; both passes either fit or raise; statistics are invariant under bijections of the positions.
- **C95 Without padding, networks commute with cropping.** windows of the unpadded convolution never leave the image; arithmetic of output extents; induction over the layers.
- **C96 Inputs that do not fit are rejected.** lifting layers: exact characterisation for batched inputs; group layers: only the product of the axes is checked, so the exact condition is on that product; the inputs accepted beyond it are exhibited.
- **C97 On a grid that is a finite group, a group element acts by permuting the group axis.** from the equivariance of networks (C75), the grids returned by the layers (C72) and distinctness of the grid elements.
- **C98 The printed description of a layer determines its configuration.** the text is modelled character by character; it is parsed back from the left: digits and brackets delimit numbers and tuples, the keys of the options are pairwise no prefixes of each other. Base classes with an integer dilation raise TypeError when printed (finding).
- **C99 The program in the README.** model of the program (Model/Readme.lean); composition of C60, C62, C68, C87 with the geometry of the defaults; invariance in distribution from C93. C99_violated_deterministic: a filter supported in one corner of the cube, which the shipped rotations do not reach and other rotations do.
- **C100 Custom groups.** the callables are specified by Mathlib's Group (Spec/Custom.lean); cancellation of g in inverse(g h) (g k), then the general equivariance lemmas of C64-C66. Concrete case: the inversions of space.
- **C101 The tutorial notebook.** model of the notebook cells (Model/Tutorial.lean), top-k with unspecified ties; C50, C52, C60, C62 for the values, cancellation for the equivariance. The interpolation claim is false: topk(largest=False) of inner products takes the two farthest elements (the vectors to the corners of a regular polygon sum to zero, so the two smallest cosines have a sum that is not positive).
- **C102 Results do not depend on the memory layout.** strided tensors and ATen's computeStride (Torch/Strided.lean): `view` succeeds exactly if some strides describe the new shape (soundness and completeness of computeStride), `reshape` always; splitting an axis is always possible, merging two exactly if they can be counted through with one stride. The normalisations merge with `view`, so they raise for other layouts.
- **C103 Small changes of the input lead to small changes of the output.** bounds for the sums of the convolution, derivative bounds for the activations, Cauchy-Schwarz for the standard deviation; networks by induction, the reference input 0 fixes the shapes and the grid of the next layer.
- **C104 The shipped rotation grids are spread out.** interval enclosures of all angles between the shipped quaternions (certificates of C87), comparison of the nearest ones.
- **C105 A separable layer is a full layer with product filters.** homogeneity of the samplers from their linearity (C80), formulas of C51, C52, C61, C62; for other strides and paddings the two classes differ already in the shapes (C62).
- **C106 E(n) layers restricted to rotations are the SE(n) layers.** the E(n) samplers split the query by the sign of the coefficient and look only at the rotations of the grid, so the kernel entries (C50, C51, C52) agree; the layers read the entries of their filters only (congruence of every operation of the forward passes).
- **C107 Premade layers built with their default grids can be used.** default grids are accepted and their widths positive (C83-C87), constructors (C58), formulas of C60, C61, C62 for the success and the shapes.
- **C108 Channel groups do not mix.** every step of the forward pass (merging channel and group axis, padding, grouped convolution, depthwise convolution, splitting, bias) keeps the blocks apart; the constructor guarantees that g divides both channel numbers (C58).
- **C109 Contributions of the group elements add up.** an entry of the sampled kernel depends only on the pair of group elements it stands for (C51, C74), formula C61, exchange of sums.
- **C110 Training on turned images.** a training step is a function of the map from parameters to features and of the running statistics; both agree for turned images (C75, C70), for all parameters of the same shapes; induction over the batches. On the torus by C94, with the running statistics of the normalisation layers.
- **C111 Residual and skip connections.** networks as an inductive type (Model/Graph.lean), induction over it; two branches could permute the group axis differently, but the permutation is determined by the group elements when these are different; single layers by C75. Layers keep the group elements if permute_output_grid=False (E(n): on the reference grid).
- **C112 Convolutions over the subgroup act on the fibres only.** formula C61 for a filter with one cell; the sampled weights only use the relative elements (C52, C56).
- **C113 Rotation equivariance needs a symmetric geometry.** weights 1 make the sampled kernel the circular mask, whose mean is its centre (C47); a linear image then gives the position of the window, and windows of mirrored outputs are not mirrored windows.
- **C114 Lattice elements use the exactly turned filter.** formula C60; lattice symmetries permute the grid points (C46), the sampler is exact at grid points (C49), the mask is symmetric (C47).
- **C115 Convolutions in floating point arithmetic.** floating point sums as an inductive relation (Spec/Rounding.lean: single terms, sums of two sums, permutations), the classical bound by induction over it; formulas C60, C61, equivariance C64, C65, C66 of the exact outputs, triangle inequality. The exact output is one of the possible evaluations.
- **C116 Rounding errors of whole networks.** inexact passes as an inductive relation (Spec/RoundedNet.lean), layers are Lipschitz with constants independent of the input (C103), induction over the layers, exact invariance C75, triangle inequality. An exact pass is an inexact pass.

## 6. Disagreements between the code and what its documentation promises (findings)

Every entry but the one about the tests is a theorem about the model (named `*_violated` or `*_partial`); the properties concerned have
status `partial` in `MANIFEST.json`.

| Property | What the code does |
|---|---|
| C07 | `so2.nearest_neighbour_distance` takes the row minimum including the element itself: the result is the constant `acos(1 - eps)` for every grid. (Outside the real-number model: in float32 `1 - 1e-12` rounds to 1, so this constant, and with it the default width, is 0.) |
| C10 | An O(2) element acts as `coefficient * rotation`; in the plane this is always a rotation, so `o2.det` is wrong for coefficient -1. |
| C13 | `grid_sample` of O(2)/O(3) with no reference weights for a coset that occurs in the query raises IndexError. |
| C21 | `matrix_to_euler` warns only if *every* rotation of the batch is gimbal locked. |
| C22 | `so3.left_apply_quat` raises TypeError on every call (trailing commas build tuples). |
| C23 | `so3_log` returns 0 for half turns. |
| C31 | `uniform_grid(cache_grid=True)` stores the Euler grid before conversion: later calls return Euler angles under `"quat"`/`"matrix"`. Caching `"euler"` raises KeyError. |
| C32, C35 | The shipped `"matrix"` grid of size 1 has shape (3,3); `o3.uniform_grid((1, m))` raises, `GConvSE3(group_kernel_size=1)` can be constructed but every call raises (C87). |
| C37 | `uniform_grid_s2(set_alpha_as_neg_gamma=True)` raises RuntimeError; unknown parameterizations raise UnboundLocalError. |
| C48 | Masks of sizes 1 and 2 are all zero, hence such masked kernels are zero. |
| C49 | Resampling at the identity is exact only for sizes up to 3 with `bilinear`; in 2D the kernel comes back transposed. |
| C52 | Separable and subgroup kernels swap the two group axes in a `view`: right only when input and output grids have equal size. |
| C54 | The `mask` argument of the SE(2) kernels is ignored. |
| C55 | Default widths: constant for SE(2) and E(2) (see C07), computed on rows of ten components for E(3); sizes `(n, 0)` with default widths raise. |
| C53, C61 | `weight` is viewed as (in, out) channels although stored as (out, in): the channels are permuted (`storedChannel` in the specification), harmlessly for learning. |
| C62 | The separable convolution applies stride and padding in both of its convolutions. |
| C113 | With `padding='same'` and an even kernel (and odd dilation) one cell more is padded on the right, and with strides that do not reach the last cell of the padded image the remainder is dropped on the right: such layers are not equivariant under half turns (no docstring names such a restriction). |
| C66 | Division by the determinant makes E(n) convolutions equivariant only up to the sign of the coefficient. |
| C68 | The max pools return a `(values, indices)` pair. |
| C69 | The spatial pools raise unless the pooled volume is one, and then drop the spatial axes. |
| C71 | `GWrap` cannot be constructed with a module. |
| C85 | `load_grid` returns the cached tensor itself, and kernels register it as the buffer `grid_H`: `load_state_dict` on one SE(3) or SO(3) layer of a shipped size writes into the cache, into all other such layers and into later results of `so3.uniform_grid`. |
| C86 | The default width of the RBF sampler depends on the random optimised grid drawn at construction and is not saved: a restored SE(3) kernel of a size above 24 differs from the saved one. |
| C87 | With `group_kernel_size=1` the SE(3) kernels are constructed but every evaluation raises RuntimeError (the shipped matrix has no grid axis); E(3) kernels with one rotation cannot be constructed. |
| C89 | The E(2) and E(3) kernels do not overwrite `group_kernel_size` by the size of a given `grid_H`; with another number of elements evaluation raises. |
| C90 | `(-1, t)` and `(1, t + pi)` are the same map of the plane but get kernels of opposite sign (see C10). |
| C96 | Group and separable layers compare only `channels × group elements` with the layer: an input with swapped channel and group axes is accepted and silently misread. A lifting layer without bias accepts one unbatched sample if its number of channels equals the first output extent and returns that spatial axis as the batch axis. |
| C99 | The README calls the pooled features `invariant`; with its default arguments the layers draw random rotations, and two runs on the same volume with the same parameters give different features (with positive probability all zero, with positive probability all positive). They are invariant in distribution. |
| C101 | `grid_sample_so2` of the tutorial selects its two `neighbours` with `torch.topk(distances, 2, largest=False)` although `distances` are inner products: it takes the two elements farthest from the query (and uses the cosines as coefficients). The constant signal 1 is sampled as a number <= 0. A one-element grid raises RuntimeError. |
| C102 | `GBatchNorm2d/3d` and `GInstanceNorm2d/3d` merge the group axis with the first spatial axis by `view`, which raises RuntimeError for transposed feature maps (`x.transpose(-1, -2)`, `torch.rot90(x, dims=(-2, -1))`) and for channels-last results of a convolution; `reshape`, which the convolution layers use, would not. |
| C98 | Layers of the base classes with an integer `dilation` (their default) cannot be printed: `extra_repr` calls `len` on it (TypeError). |
| C79 | For group, subgroup and separable kernels `fan_in` counts the output channels instead of the group elements (the first axis of the weight is the group axis). |
| C58 | Integer stride or dilation with `padding='same'` on the base class raises TypeError; `groups=0` of a premade module raises ZeroDivisionError (the kernel is built first). |
| (tests) | `gconv/tests/test_gconv_se2.py`, `test_gconv_se3.py`, `test_group_o2.py`, `test_group_o3.py`, `test_group_so2.py`, `test_kernel_se2.py`, `test_kernel_e2.py`, `test_kernel_e3.py` import `gconv.nn`, which does not exist (the package is `gconv.gnn`): they stop with ModuleNotFoundError and check nothing (read off the sources, not a theorem). |

## 7. Tests of the theorems against wrong programs

`seeded/LOG.jsonl`: one line per edit of the model (a realistic bug), with the theorems that no longer prove.
A theorem counts as failing when its own proof or a lemma it depends on fails.
