## 6. Disagreements between the code and what its documentation promises (findings)

Every entry but the one about the tests is a theorem about the model (named `*_violated` or `*_partial`); the properties concerned have
status `partial` in `MANIFEST.json`.

| Property | What the code does |
|---|---|
| C07 | `so2.nearest_neighbour_distance` takes the row minimum including the element itself: the result is the constant `acos(1 - eps)` for every grid. (Outside the real-number model: in float32 `1 - 1e-12` rounds to 1, so this constant, and with it the default width, is 0.) |
| C10 | An O(2) element acts as `coefficient * rotation`; in the plane this is always a rotation, so `o2.det` is wrong for coefficient -1. |
| C13 | `grid_sample` of O(2)/O(3) with no reference weights for a coset that occurs in the query raises IndexError. |
| C21 | `matrix_to_euler` warns only if *every* rotation of the batch is gimbal locked. |
| C22 | `so3.left_apply_quat` raises TypeError on every call (trailing commas build tuples). |
| C23 | `so3_log` returns 0 for half turns. |
| C31 | `uniform_grid(cache_grid=True)` stores the Euler grid before conversion: later calls return Euler angles under `"quat"`/`"matrix"`. Caching `"euler"` raises KeyError. |
| C32, C35 | The shipped `"matrix"` grid of size 1 has shape (3,3); `o3.uniform_grid((1, m))` raises, `GConvSE3(group_kernel_size=1)` can be constructed but every call raises (C87). |
| C37 | `uniform_grid_s2(set_alpha_as_neg_gamma=True)` raises RuntimeError; unknown parameterizations raise UnboundLocalError. |
| C48 | Masks of sizes 1 and 2 are all zero, hence such masked kernels are zero. |
| C49 | Resampling at the identity is exact only for sizes up to 3 with `bilinear`; in 2D the kernel comes back transposed. |
| C52 | Separable and subgroup kernels swap the two group axes in a `view`: right only when input and output grids have equal size. |
| C54 | The `mask` argument of the SE(2) kernels is ignored. |
| C55 | Default widths: constant for SE(2) and E(2) (see C07), computed on rows of ten components for E(3); sizes `(n, 0)` with default widths raise. |
| C53, C61 | `weight` is viewed as (in, out) channels although stored as (out, in): the channels are permuted (`storedChannel` in the specification), harmlessly for learning. |
| C62 | The separable convolution applies stride and padding in both of its convolutions. |
| C113 | With `padding='same'` and an even kernel (and odd dilation) one cell more is padded on the right, and with strides that do not reach the last cell of the padded image the remainder is dropped on the right: such layers are not equivariant under half turns (no docstring names such a restriction). |
| C66 | Division by the determinant makes E(n) convolutions equivariant only up to the sign of the coefficient. |
| C68 | The max pools return a `(values, indices)` pair. |
| C69 | The spatial pools raise unless the pooled volume is one, and then drop the spatial axes. |
| C71 | `GWrap` cannot be constructed with a module. |
| C85 | `load_grid` returns the cached tensor itself, and kernels register it as the buffer `grid_H`: `load_state_dict` on one SE(3) or SO(3) layer of a shipped size writes into the cache, into all other such layers and into later results of `so3.uniform_grid`. |
| C86 | The default width of the RBF sampler depends on the random optimised grid drawn at construction and is not saved: a restored SE(3) kernel of a size above 24 differs from the saved one. |
| C87 | With `group_kernel_size=1` the SE(3) kernels are constructed but every evaluation raises RuntimeError (the shipped matrix has no grid axis); E(3) kernels with one rotation cannot be constructed. |
| C89 | The E(2) and E(3) kernels do not overwrite `group_kernel_size` by the size of a given `grid_H`; with another number of elements evaluation raises. |
| C90 | `(-1, t)` and `(1, t + pi)` are the same map of the plane but get kernels of opposite sign (see C10). |
| C96 | Group and separable layers compare only `channels × group elements` with the layer: an input with swapped channel and group axes is accepted and silently misread. A lifting layer without bias accepts one unbatched sample if its number of channels equals the first output extent and returns that spatial axis as the batch axis. |
| C99 | The README calls the pooled features `invariant`; with its default arguments the layers draw random rotations, and two runs on the same volume with the same parameters give different features (with positive probability all zero, with positive probability all positive). They are invariant in distribution. |
| C101 | `grid_sample_so2` of the tutorial selects its two `neighbours` with `torch.topk(distances, 2, largest=False)` although `distances` are inner products: it takes the two elements farthest from the query (and uses the cosines as coefficients). The constant signal 1 is sampled as a number <= 0. A one-element grid raises RuntimeError. |
| C102 | `GBatchNorm2d/3d` and `GInstanceNorm2d/3d` merge the group axis with the first spatial axis by `view`, which raises RuntimeError for transposed feature maps (`x.transpose(-1, -2)`, `torch.rot90(x, dims=(-2, -1))`) and for channels-last results of a convolution; `reshape`, which the convolution layers use, would not. |
| C98 | Layers of the base classes with an integer `dilation` (their default) cannot be printed: `extra_repr` calls `len` on it (TypeError). |
| C79 | For group, subgroup and separable kernels `fan_in` counts the output channels instead of the group elements (the first axis of the weight is the group axis). |
| C58 | Integer stride or dilation with `padding='same'` on the base class raises TypeError; `groups=0` of a premade module raises ZeroDivisionError (the kernel is built first). |
| (tests) | `gconv/tests/test_gconv_se2.py`, `test_gconv_se3.py`, `test_group_o2.py`, `test_group_o3.py`, `test_group_so2.py`, `test_kernel_se2.py`, `test_kernel_e2.py`, `test_kernel_e3.py` import `gconv.nn`, which does not exist (the package is `gconv.gnn`): they stop with ModuleNotFoundError and check nothing (read off the sources, not a theorem). |

## 7. Tests of the theorems against wrong programs

`seeded/LOG.jsonl`: one line per edit of the model (a realistic bug), with the theorems that no longer prove.
A theorem counts as failing when its own proof or a lemma it depends on fails.
