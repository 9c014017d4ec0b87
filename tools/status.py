PARTIAL = {
 'C96': "Lifting layers: batched inputs are accepted exactly if they fit (C96_lifting), other ranks are rejected (C96_lifting_rank) except one unbatched sample, which is accepted and misread when its number of channels is the first output extent (C96_violated_unbatched). Group, subgroup and separable layers: a wrong number of group elements or of channels alone is rejected (C96_group_rejects); the exact condition is on the product of the two (C96_group_partial), so inputs with swapped channel and group axes are accepted and misread (C96_violated_swapped, C96_violated_rereads).",
 'C89': "Proved for the SE(2) and SE(3) kernels (C89_SE2_partial, C89_SE3_partial). False of the E(2) and E(3) kernels, which keep group_kernel_size for the weight: with a grid of another number of elements no rbf evaluation succeeds (C89_violated_E2, C89_violated_E3).",
 'C90': "Proved for angles differing by full turns, for SE(2) and E(2), kernels and layers including errors. False of E(2) in general: (-1,t) and (1,t+pi) act identically on the plane but their lifting kernels are negatives of each other because det is the coefficient (C90_violated_E2, see C10).",
 'C87': "Proved for SE(2) and E(2) with 1..10^6 rotations per coset (for larger sizes the cut-off of the distance makes neighbours indistinguishable) and for all shipped grids (2..24) of SE(3) and E(3); separable kernels for equal input and output grid sizes (see C52). False of the code for one rotation: SE(3) evaluation raises (C87_violated_SE3), the E(3) constructor raises (C87_violated_E3). The same for GSubgroupKernelSO3: C87_SO3_partial for 2..24 rotations, C87_violated_SO3 for one. Sizes above 24 depend on the random optimised grid.",
 'C86': "False of the code: the default RBF width is computed from the randomly optimised grid at construction and is not part of the state, so a restored SE(3) kernel of a size above 24 samples with another width (C86_SE3_width_kept, C86_SE3_violated). Proved: SE(2) and E(2) kernels, all lifting kernels, and SE(3)/E(3) kernels with given widths, given grids or shipped sizes. The same for GSubgroupKernelSO3 (C86_SO3_*; the wrong width there: C86_SO3_width_kept).",
 'C85': "False of the code: load_grid returns the cached tensor object without copying and the kernel registers it as grid_H, so load_state_dict on one SE(3)/SO(3) layer of size 1..24 changes the cache, all other such layers and later so3.uniform_grid results (C85_shared, C85_violated). Proved for all histories: parameters are private and loads set exactly the given values (C85_parameters, C85_load), layers with a new grid are independent (C85_private_partial), nothing changes without writes (C85_stable_partial).",
 'C07': "The unchanged code violates the property: the row minimum includes the element itself. C07_partial gives the exact value for every grid (a constant), C07_violated a counterexample.",
 'C10': "The unchanged code violates the property for every element with coefficient -1: C10_partial gives the true determinant (always 1), C10_violated the negation.",
 'C21': "The unchanged code violates the property: it warns only when every rotation of the batch is gimbal locked (C21_partial, exact condition); C21_violated is a mixed batch.",
 'C22': "The unchanged code violates the property: every call raises TypeError (C22_partial); C22_violated is the negation.",
 'C23': "Proved: for every rotation away from half turns (C23_value_partial, C23_exp_log_partial), exact value near the identity (C23_small_partial), so3_log(I)=0, exact value at half turns. Missing because false of the code: half turns, where the result is 0 (C23_half_turn, C23_violated).",
 'C31': "Proved for every history of non-caching calls (C31_no_cache_partial), ValueError for unknown parameterizations, and the exact effect of caching (C31_after_caching). False of the code after cache_grid=True (C31_violated), and caching an Euler grid raises KeyError (C31_cache_euler).",
 'C32': "All rows of all 48 shipped grids are proved to be rotations and to agree; shapes proved except the 'matrix' grid of size 1, which has shape (3,3) (C32_violated).",
 'C37': "Proved: dispatch of every string and the z-axis statement. False of the code: set_alpha_as_neg_gamma raises RuntimeError for every non-empty grid (C37_violated).",
 'C48': "Proved for every size >= 3 (C48_support_partial). False of the code for sizes 1 and 2, whose mask is all zero (C48_violated).",
 'C49': "Proved: exact for the identity with mode 'nearest' and 'border' padding (C49_R3_partial; C49_R2_transposed_partial shows the 2D kernel comes back transposed). False of the code for 'bilinear' with larger kernels and for the 2D axis order (C49_violated_bilinear, C49_violated_R2).",
 'C52': "Proved when |in_H| = |out_H| (C52_subgroup_partial, C52_separable_partial). False of the code otherwise: the view exchanges the two group axes (C52_violated_shape gives the exact values returned).",
 'C54': "Proved for the SE(3), E(2) and E(3) kernels. False of the SE(2) kernels, which overwrite the argument and always mask (C54_SE2_violated).",
 'C55': "Proved for the SE(3) kernels (C55_SE3_partial) and for given widths (C55_given). False of the code for SE(2), E(2) (constant width, the row minimum includes the element itself) and E(3) (rows of ten components are used as quaternions): C55_SE2_violated, C55_E2_violated, C55_E3_violated with concrete cases.",
 'C62': "Proved: exact formula for every configuration (C62_formula_partial), the full claim for unit strides without padding or with zero padding 'same' (C62_once_partial, C62_extents_partial, and the premade modules). False of the code otherwise: stride and padding are applied by both convolutions (C62_violated_padding, C62_violated_stride).",
 'C66': "Proved: equivariance up to the factor det g for every lattice symmetry (C66_*_partial), hence exact for coefficient +1. False of the code for coefficient -1: the output changes sign (C66_violated).",
 'C68': "Proved for the average pools (exact value and shape). False of the max pools: they return a (values, indices) pair (C68_max_*_partial give the pair exactly, C68_violated the negation).",
 'C69': "False of the code: the call succeeds exactly when the pooled spatial volume is 1, and then the spatial axes are dropped (C69_partial, C69_violated).",
 'C71': "Proved for GReLU, GLeakyReLU, GGELU. False of GWrap: its constructor raises AttributeError for every module, and calling a wrapped plain function raises too (C71_violated).",
 'C102': "Proved: exact criterion for view, reshape and for merging and splitting axes (C102_view, C102_reshape, C102_merge, C102_split); the convolutions do not depend on any layout (C102_lifting_partial, C102_group_partial, C102_separable_partial); the normalisations do not when the group axis and the first spatial axis can be merged (C102_batch_norm_partial, C102_instance_norm_partial), which row-major tensors satisfy (C102_rows). False of the code otherwise: they raise RuntimeError (C102_norm_violated), e.g. for transposed maps (C102_transposed_violated) and after a channels-last convolution (C102_channels_last_violated).",
 'C101': "Proved: the group operations (C101_ops_partial), what the sampler returns (C101_sample_partial), the program with the values and shapes of its feature maps for all sizes (C101_program_partial), equivariance of both layers (C101_lifting_partial, C101_separable_partial). False of the code: the interpolation; the two farthest grid elements are used, so the constant signal 1 is read as a number <= 0 (C101_violated_constant), the stored value at a grid element does not enter the result there (C101_violated_at_grid), and one-element grids raise (C101_violated_single).",
}
NOTES = {}
