#!/usr/bin/env python3
"""Single source for properties.jsonl and for the per-property table of DESIGN.md."""
import json, os
HERE = os.path.dirname(os.path.abspath(__file__))
ROOT = os.path.dirname(HERE)
P = []
def p(title, statement, quantifier, why, anchors, plan):
    P.append(dict(id="C%02d" % (len(P)+1), title=title, statement=statement,
                  quantifier=quantifier, why_tests_cant=why, anchors=anchors, plan=plan))
G='gconv/geometry/groups/'; N='gconv/gnn/'
REAL="A test samples finitely many floats of an uncountable domain."
# ---------------- SO(2)
p("SO(2) angles represent rotations faithfully",
  "so2.angle_to_matrix sends every angle to an orthogonal 2x2 matrix of determinant 1; the matrix of so2.left_apply_angle(a,b) is the product of the matrices of a and b; the matrix of so2.inverse_angle(a) is so2.inverse_matrix of the matrix of a and is its two-sided inverse; two angles have the same matrix exactly when they differ by a multiple of 2pi.",
  "all angles a, b (real numbers)", REAL, [G+"so2.py:angle_to_matrix,left_apply_angle,inverse_angle,inverse_matrix"],
  "model the four functions over R; trig identities; periodicity of cos/sin through the remainder.")
p("SO(2) composition is a normalised group law",
  "so2.left_apply_angle always returns an angle in [0,2pi), is associative and commutative, leaves already normalised angles unchanged when composed with 0, and composing any angle with its inverse_angle (on either side) returns 0. left_apply_to_angle returns, at position (i,j), exactly left_apply_angle(R1[i],R2[j]).",
  "all real angles; all batches of any sizes", REAL, [G+"so2.py:left_apply_angle,left_apply_to_angle,inverse_angle"],
  "floor-based python remainder; group laws through uniqueness of the representative in [0,2pi).")
p("SO(2) uniform grid is the cyclic group of order n",
  "so2.uniform_grid(n) has exactly n angles, the k-th is 2*pi*k/n, they are strictly increasing and lie in [0,2pi), 0 is the first one (n>0), and the set is closed under left_apply_angle and (up to normalisation) inverse_angle.",
  "every n >= 0 and every pair of grid elements", "Closure must hold for every n and every pair; tests look at one n.", [G+"so2.py:uniform_grid"],
  "model torch.linspace and slicing; arithmetic of k/n modulo 1.")
p("Random grids only contain valid group elements",
  "For every draw of the random generator: so2.random_grid angles lie in [0,2pi); o2.random_grid rows have a coefficient that is exactly 1 or -1 and an angle in [0,2pi); so3.random_quat returns unit quaternions and so3.random_matrix rotation matrices for every non-zero normal draw; o3.random_grid rows are a coefficient +-1 and a flattened rotation matrix.",
  "every size and every outcome of torch.rand / torch.randn (non-zero for quaternions)", "The claim ranges over all outcomes of the generator.", [G+"so2.py:random_grid", G+"o2.py:random_grid", G+"so3.py:random_quat,random_matrix", G+"o3.py:random_grid"],
  "random draws are explicit parameters of the model.")
p("SO(2) acts on the plane by isometries",
  "so2.left_apply_angle_to_R2 returns at (n,w,h) the rotation of grid[w,h] by angle R[n]; it preserves inner products (hence lengths and distances), the zero angle acts as the identity, and acting with left_apply_angle(a,b) equals acting with b, then a.",
  "all angles, all vectors, all batch and grid sizes", REAL, [G+"so2.py:left_apply_angle_to_R2,left_apply_matrix_to_R2"],
  "tensor-level model of the broadcast matmul, pointwise theorem.")
p("SO(2) geodesic distance",
  "so2.geodesic_distance(a,b,eps) is symmetric, invariant under applying the same rotation to both arguments, depends only on the rotations and not on the chosen angles, always lies in [acos(1-eps), acos(-1+eps)], and equals the arc length |a-b| whenever that is in [acos(1-eps), acos(-1+eps)] (which is within [0,pi]).",
  "all angles, all 0<=eps<=1", REAL, [G+"so2.py:geodesic_distance,geodesic_distance_euclid,angle_to_euclid"],
  "cos(a-b) identity, arccos monotone, arccos_cos.")
p("SO(2) nearest neighbour distance is the distance to the nearest other element",
  "so2.nearest_neighbour_distance(grid) returns for each element the geodesic distance to the closest OTHER element of the grid.",
  "all grids of at least two angles", "Any fixed grid may coincide by accident; the claim is about all grids.", [G+"so2.py:nearest_neighbour_distance", N+"kernels/kernel_sen/kernel_se2.py:GSeparableKernelSE2,GKernelSE2"],
  "The unchanged code violates this (the minimum includes the element itself): prove the value is the constant acos(1-eps) for every grid, and a counterexample; partial.")
# ---------------- O(2)
p("O(2) elements form a group under the API product",
  "o2.left_apply_angle on pairs (coefficient +-1, angle) returns a coefficient +-1 and an angle in [0,2pi); it is associative, (1,0) is neutral on normalised elements, o2.inverse yields the two-sided inverse, o2.det is multiplicative, and left_apply_to_angle is the pairwise table of left_apply_angle.",
  "all O2 elements, all batches", REAL, [G+"o2.py:left_apply_angle,left_apply_to_angle,inverse,det"],
  "reduce to the SO(2) law and signs.")
p("O(2) acts on the plane by isometries compatible with the product",
  "o2.left_apply_to_R2 returns at (n,w,h) coefficient*rotation applied to grid[w,h], preserves inner products, and acting with left_apply_angle(a,b) equals acting with b, then a; acting with inverse(a) undoes a.",
  "all O2 elements with coefficient +-1, all vectors", REAL, [G+"o2.py:left_apply_to_R2"],
  "as for SO(2).")
p("O(2) determinant is the determinant of the plane transformation",
  "o2.det(h) equals the determinant of the linear map of the plane by which left_apply_to_R2 lets h act, and different O2 elements (normalised) act differently.",
  "all O2 elements", REAL, [G+"o2.py:det,left_apply_to_R2"],
  "violated for every element with coefficient -1 (-R is a rotation in the plane): prove the true determinant is always 1, so det is right exactly for rotations, and (-1,t) acts like (1,t+pi); partial.")
p("O(2)/O(3) uniform grids list rotations first",
  "o2.uniform_grid((n,m)) has n+m rows: rows i<n are (1, 2*pi*i/n), rows n<=i<n+m are (-1, 2*pi*(i-n)/m).",
  "all n, m", "All sizes at once.", [G+"o2.py:uniform_grid"],
  "list model of cat; index lemmas.")
p("O(2)/O(3) grid_sample returns rows in the order of the query grid",
  "For a query grid in any order of rotations and reflections (coefficients +-1), row i of o2.grid_sample / o3.grid_sample is what so2/so3.grid_sample returns for the rotation part of query i against the rotation sub-signal if the coefficient is 1 and against the reflection sub-signal if it is -1.",
  "all query grids and signals with both sub-signals non-empty, any per-row sampler", "The restore permutation must be right for every one of the exponentially many orders.", [G+"o2.py:grid_sample", G+"o3.py:grid_sample"],
  "model torch.where, cat, argsort, advanced indexing on lists; generic theorem over the row sampler.")
p("O(2)/O(3) grid_sample when one coset has no weights",
  "If signal_grid_size has n_reflections = 0 (or n_rotations = 0), grid_sample succeeds exactly when the query grid contains no element of that coset, and raises an IndexError otherwise.",
  "all query grids and signals", "Whether the error shows up depends on the (random) query grid.", [G+"o2.py:grid_sample", G+"o3.py:grid_sample", N+"modules/gconv_en/gconv_e2.py:forward"],
  "error branch of the same model.")
# ---------------- SO(3)
p("Axis rotation matrices",
  "so3.matrix_x/y/z send every angle to a rotation matrix (orthogonal, det 1) that fixes the named axis; the matrix of a sum of angles is the product; the matrix of -t is matrix_inverse.",
  "all angles", REAL, [G+"so3.py:matrix_x,matrix_y,matrix_z,matrix_inverse"],
  "entrywise trig identities.")
p("Unit quaternions represent rotations",
  "so3.quat_to_matrix sends every unit quaternion to a rotation matrix, Hamilton products to matrix products, quat_inverse to matrix_inverse, and q, -q (and only these, among unit quaternions) to the same matrix.",
  "all unit quaternions", REAL, [G+"so3.py:quat_to_matrix,quat_inverse"],
  "polynomial identities; the kernel of the double cover by comparing entries.")
p("matrix_to_quat inverts quat_to_matrix on all rotations",
  "For every rotation matrix R, so3.matrix_to_quat(R) is a unit quaternion and quat_to_matrix of it is exactly R, whichever of the four argmax branches is taken.",
  "all rotation matrices", "The argmax branch taken depends on R; sets of measure zero (ties, trace -1) are never sampled.", [G+"so3.py:matrix_to_quat"],
  "model argmax over (diag, trace) with first-maximum; polynomial identities from R R^T=1, det R=1; positivity of the pivot.")
p("quat -> matrix -> quat returns the same rotation",
  "For every unit quaternion q, matrix_to_quat(quat_to_matrix(q)) is q or -q.",
  "all unit quaternions", REAL, [G+"so3.py:matrix_to_quat,quat_to_matrix"],
  "from the two previous properties.")
p("Euler angles follow the extrinsic ZYZ convention",
  "so3.euler_to_matrix((alpha,beta,gamma)) equals Rz(gamma) Ry(beta) Rz(alpha) with every entry of absolute value at most eps replaced by 0 (so it is off by at most eps per entry and exact when eps=0); euler_to_quat is a unit quaternion of that rotation when eps=0.",
  "all Euler triples, all eps >= 0", REAL, [G+"so3.py:euler_to_matrix,euler_to_quat"],
  "entrywise comparison with matrix_z/matrix_y.")
p("matrix_to_euler gives back the rotation",
  "For every rotation matrix R outside the eps-neighbourhood of gimbal lock, and at exact gimbal lock (beta = 0 or pi), rebuilding the (unmasked) matrix from matrix_to_euler(R) gives exactly R; near gimbal lock (0<beta<eps or 0<pi-beta<eps) the entries are off by at most 2*eps or so.",
  "all rotation matrices, 0<eps<1", "Gimbal lock is a measure-zero set with its own code path.", [G+"so3.py:matrix_to_euler,euler_to_matrix"],
  "arccos/atan2 (Complex.arg) model of the scalar path; exact statement plus error bound.")
p("matrix_to_euler output ranges",
  "Every angle returned by matrix_to_euler lies in [-pi,pi), the third angle is 0 whenever the rotation is treated as gimbal locked, and the step-7 adjustment never applies.",
  "all 3x3 matrices", REAL, [G+"so3.py:matrix_to_euler"],
  "ranges of arccos and arg; wrap step.")
p("Gimbal lock warning",
  "matrix_to_euler emits the gimbal-lock warning whenever some rotation of the batch is gimbal locked (unless no_warn).",
  "all batches", "Only mixed batches reveal it.", [G+"so3.py:matrix_to_euler"],
  "violated: the code warns iff no element is safe. Prove the exact condition and a mixed-batch counterexample; partial.")
p("left_apply_quat computes the quaternion product",
  "so3.left_apply_quat(q1,q2) returns the Hamilton product q1*q2.",
  "all quaternions", "A stated API behaviour.", [G+"so3.py:left_apply_quat"],
  "violated: lines 197-199 assign a tuple to a tensor slice and raise TypeError on every input. Prove that no input returns; partial.")
p("so3_log is a logarithm",
  "For every rotation R by an angle t with acos(1-eps) <= t <= acos(-1+eps), so3.so3_log(R) is t times the unit rotation axis, its norm is t, and the Rodrigues exponential of it is R; so3_log(I)=0.",
  "all rotation matrices", REAL, [G+"so3.py:so3_log"],
  "Rodrigues formula. The property fails at half turns (clamp hides theta==pi; the skew part vanishes): counterexample; partial.")
p("quaternion_log",
  "For every unit quaternion cos(t)+sin(t)u (0<t<pi, |u|=1), so3.quaternion_log returns (0, t*u); for the identity it returns the zero vector; the scalar part is log|q| for every non-zero q.",
  "all unit quaternions", REAL, [G+"so3.py:quaternion_log"],
  "arccos_cos, norms.")
p("SO(3) geodesic distance",
  "so3.geodesic_distance(q1,q2,eps) is symmetric, unchanged when q1 or q2 is negated, bi-invariant under quaternion multiplication by unit quaternions, lies in [acos(1-eps), pi/2], and equals half the rotation angle between the two rotations (acos((tr(R1^T R2)-1)/2)/2) whenever the quaternion inner product is at most 1-eps in absolute value.",
  "all unit quaternions, 0<=eps<=1", REAL, [G+"so3.py:geodesic_distance"],
  "inner-product identity for Hamilton products, trace identity, half-angle formula.")
p("SO(3) nearest neighbour distance",
  "For a grid of at least two unit quaternions, so3.nearest_neighbour_distance returns for each element the minimum of the distances to the other elements; for fewer than two elements it raises IndexError.",
  "all grids of unit quaternions of any length", "All grids and lengths.", [G+"so3.py:nearest_neighbour_distance"],
  "model sort and column selection; second smallest of a row whose own entry is minimal.")
p("SO(3) acts on R^3 by rotations",
  "so3.left_apply_to_R3 returns at (n,x,y,z) the product R[n]*grid[x,y,z]; for rotation matrices it preserves inner products; left_apply_matrix is compatible with it; left_apply_to_matrix is the pairwise product table; matrix_inverse is the two-sided inverse; products and inverses of rotations are rotations.",
  "all rotation matrices, vectors, batch sizes", REAL, [G+"so3.py:left_apply_to_R3,left_apply_matrix,left_apply_to_matrix,matrix_inverse"],
  "Mathlib Matrix API.")
p("The built-in polyhedral groups are groups of rotations",
  "so3.identity, klein_group, tetrahedral, octahedral, icosahedral list 1, 4, 12, 24, 60 pairwise different rotations (as quaternions up to sign); each contains the identity, is closed under the product and inverse up to sign, exactly for the first three and to 1e-7 per component for the last two; all entries have unit norm to 1e-7.",
  "all pairs of elements of each table", "Tests do not check all 3600 products; the claim is about whole tables.", [G+"so3.py:identity,klein_group,tetrahedral,octahedral,icosahedral"],
  "tables as integers scaled by 1e8; whole-table kernel computation lifted to statements over the reals.")
p("Cyclic subgroups of SO(3)",
  "so3.cyclic_x/y/z(n) returns n unit quaternions whose rotation matrices are the n rotations by 2*pi*k/n about the named axis; they are closed under product; cyclic dispatches on the axis letter case-insensitively and raises ValueError for anything else.",
  "all n, all axis strings", "All n and all strings.", [G+"so3.py:cyclic,cyclic_x,cyclic_y,cyclic_z"],
  "from C14, C16 and linspace.")
p("Grid cache behaves like a write-once map",
  "After any history of save_grid/load_grid calls, load_grid(size,type,param) (case-insensitive) returns the first grid saved under that key, or the last one saved with overwrite=True after it, other keys are unaffected, and a key never present raises KeyError; saving under an unknown type or parameterization raises KeyError.",
  "all histories of operations", "Ranges over all histories.", [G+"_grid_cache.py:save_grid,load_grid"],
  "state machine with an abstract map spec; refinement by induction on the history.")
p("uniform_grid honours its parameterization for every history",
  "so3.uniform_grid(size, parameterization, ..., cache_grid) returns a grid in the requested parameterization, whatever calls were made before.",
  "all histories of uniform_grid calls", "Only a second call after a caching call reveals a problem.", [G+"so3.py:uniform_grid", G+"_grid_cache.py"],
  "violated: the Euler grid is stored under the requested key before conversion, so the next call returns Euler angles; and cache_grid with 'euler' raises KeyError. Prove the property for histories without cache_grid, the counterexample, and the exact dispatch/ValueError behaviour; partial.")
p("Shipped grids are rotations",
  "For every size 1..24 the cached 'quat' grid has exactly size rows of unit norm (2e-4), the cached 'matrix' grid has size rotation matrices (orthogonality and determinant to 2e-4) describing the same rotations as the quaternion grid (3e-4).",
  "all table rows", "Whole table, every row.", [G+"_grid_cache.py:_grid_cache"],
  "tables as integers; whole-table kernel computation. Size 1 'matrix' violates it (a 3x3 tensor instead of 1x3x3): prove it; partial.")
# ---------------- O(3)
p("O(3) elements form a group under the API product",
  "o3.left_apply_O3 on 10-vectors (coefficient, flattened matrix) multiplies coefficients and matrices, is associative, has neutral element (1,I), inverse is the two-sided inverse on orthogonal elements, det is multiplicative, left_apply_to_O3 is the pairwise table.",
  "all O3 elements, all batches", REAL, [G+"o3.py:left_apply_O3,left_apply_to_O3,inverse,det"],
  "10-vectors as Fin 10 -> R with explicit flatten/unflatten; Matrix algebra.")
p("O(3) acts on R^3 by isometries and det is the true determinant",
  "o3.left_apply_to_R3 at (n,x,y,z) is coefficient*R applied to grid[x,y,z]; for coefficient +-1 and R a rotation it preserves inner products, is compatible with the product, and o3.det equals the determinant of the acting matrix.",
  "all O3 elements and vectors", REAL, [G+"o3.py:left_apply_to_R3,det"],
  "det(cR)=c^3 det R.")
p("O(3) uniform grid layout",
  "o3.uniform_grid((n,m)) has n+m rows, first n with coefficient 1 and the SO(3) grid of size n, then m with coefficient -1 and the SO(3) grid of size m; matrix_only returns just the matrices.",
  "all n, m for which the SO(3) grids are well-shaped", "All sizes.", [G+"o3.py:uniform_grid"],
  "list model parameterised by the so3 grid.")
# ---------------- S2
p("S2 coordinate round trips",
  "s2.spherical_to_euclid always returns a unit vector; euclid_to_spherical followed by spherical_to_euclid is the identity on every unit vector (poles included); spherical_to_euclid followed by euclid_to_spherical is the identity for beta in (0,pi), gamma in (-pi,pi].",
  "all angles, all unit vectors", REAL, [G+"s2.py:spherical_to_euclid,euclid_to_spherical"],
  "arccos, Complex.arg.")
p("S2 grids embedded in SO(3)",
  "s2.spherical_to_euler(g) is the Euler triple (0,beta,gamma) whose rotation maps the z axis to spherical_to_euclid(g); with set_alpha_as_neg_gamma the alpha angle is -gamma; unknown parameterizations are rejected.",
  "all spherical grids, all parameterization strings", REAL, [G+"s2.py:spherical_to_euler,spherical_to_euler_neg_gamma,uniform_grid_s2"],
  "first part proved; neg_gamma always raises (hstack of 1-d and 2-d tensors), unknown strings raise UnboundLocalError only after optimisation; partial.")
# ---------------- interpolation
p("Gaussian RBF",
  "interpolation.RBF_gauss(x,w) is 1 at 0, even, strictly decreasing in |x|, in (0,1], and equals one half at x=w up to 1e-8 (w the half width at half height), for every non-zero width.",
  "all x, all w != 0", REAL, ["gconv/geometry/interpolation.py:RBF_gauss"],
  "exp monotone; numeric bound on log 2.")
p("RBF interpolation reproduces the signal",
  "When the RBF matrix of the signal grid is invertible, interpolate_RBF evaluated at a grid node returns exactly that node's signal; the result is linear in the signal and is the Gaussian expansion solving the interpolation conditions; when the matrix is singular the call raises. In mode 'rbf' so2/so3/o2/o3.grid_sample at a query equal to an element of the signal grid return that element's signal.",
  "all grids, signals, distance functions, radial functions", REAL, ["gconv/geometry/interpolation.py:interpolate_RBF", G+"so2.py:grid_sample", G+"so3.py:grid_sample", G+"o2.py:grid_sample", G+"o3.py:grid_sample"],
  "Matrix inverse model of linalg.solve.")
p("Nearest neighbour interpolation picks a nearest node",
  "interpolate_NN returns for each query the signal row of a grid node at minimal distance; if one node is strictly closest it is that node's signal; every output row is a row of the signal. In mode 'nearest' so2/so3.grid_sample do this with the geodesic distance, o2/o3.grid_sample with the geodesic distance among the grid elements of the query's coset.",
  "all grids, queries, distance functions", REAL, ["gconv/geometry/interpolation.py:interpolate_NN", G+"so2.py:grid_sample", G+"so3.py:grid_sample", G+"o2.py:grid_sample", G+"o3.py:grid_sample"],
  "model topk(k=1, largest=False) as an arbitrary minimiser.")
p("Group sampling is left-invariant",
  "For SO(2), O(2), SO(3) and O(3): applying one and the same group element on the left of both the query grid and the signal grid does not change what grid_sample returns (both modes; O(2)/O(3) for rotations).",
  "all group elements, grids, signals, modes, widths", REAL, [G+"so2.py:grid_sample", G+"so3.py:grid_sample", G+"o2.py:grid_sample", G+"o3.py:grid_sample"],
  "distances are invariant, so all matrices are equal.")
p("Unknown sampling modes are rejected",
  "so2/so3.grid_sample accept exactly the modes 'rbf' and 'nearest' and raise ValueError for every other string; so do o2/o3.grid_sample when the signal grid is not empty.",
  "all strings", "All strings.", [G+"so2.py:grid_sample", G+"so3.py:grid_sample", G+"o2.py:grid_sample", G+"o3.py:grid_sample"],
  "dispatch model.")
p("Barycentric interpolation is a convex combination",
  "interpolate_BCC returns, for every query, a combination of three signal rows with non-negative weights summing to 1 (hence inside their convex hull), and exactly the nearest row's signal when that distance is at most eps, provided some coefficient returned by least squares is positive.",
  "all grids, queries, signals and least-squares outputs", REAL, ["gconv/geometry/interpolation.py:interpolate_BCC"],
  "least-squares solution as a parameter; clamp-and-normalise lemma.")
# ---------------- repulsion
p("Repulsion bookkeeping",
  "repulsion.repulse performs exactly `steps` gradient steps with noise amplitude alpha*(steps-epoch)/steps, strictly decreasing and in (0,alpha]; with in_place=True the caller's grid becomes the returned grid, with in_place=False the caller's grid keeps its values; the number of points never changes.",
  "all step counts, gradients, noise draws", "All gradient/noise sequences.", ["gconv/geometry/repulsion.py:repulse"],
  "heap model with two cells, gradient and noise as parameters; induction on steps.")
p("Coulomb energy",
  "repulsion.columb_energy(d,k) is positive and strictly decreasing on d>0 for every k>=1, so moving a pair apart lowers its energy.",
  "all d>0, k>=1", REAL, ["gconv/geometry/repulsion.py:columb_energy"],
  "zpow monotonicity.")
# ---------------- functional
p("Spatial reference grids",
  "create_grid_R2(s)[i,j] = (x_i,x_j) and create_grid_R3(s)[i,j,k] = (x_k,x_j,x_i) with x_i = -1+2i/(s-1) (s>=2): all coordinates lie in [-1,1], distinct cells have distinct coordinates, and reversing an axis negates the coordinate.",
  "all sizes and indices", "All sizes.", [N+"functional/grid.py:create_grid_R2,create_grid_R3"],
  "tensor model of linspace, meshgrid, stack.")
p("Spherical mask is a radial, symmetric 0/1 mask",
  "create_spherical_mask_R2/R3(s) is 1 exactly at cells whose reference coordinate has norm < 1.1 and 0 elsewhere; it is invariant under every axis permutation and reversal; for odd s>=3 it keeps the centre and the axis end points and drops the corners.",
  "all sizes, indices, lattice symmetries", "All sizes.", [N+"functional/mask.py"],
  "norm of signed-permuted coordinates.")
p("A masked kernel has support",
  "For every kernel_size the mask keeps at least one kernel cell (so a masked layer can have non-zero output).",
  "all kernel sizes", "Tests use sizes 3 and 5.", [N+"functional/mask.py", N+"kernels/kernel_sen/kernel_se2.py"],
  "violated for sizes 1 and 2 (all cells masked, weights and outputs identically 0), proved for all s>=3; partial.")
p("Identity group element leaves the kernel unchanged",
  "Sampling the spatial weights with the identity group element returns the stored weights (modulo mask).",
  "all kernel sizes and weights", "Small sizes happen to work.", [N+"kernels/kernel.py:GLiftingKernel.forward", N+"functional/grid.py"],
  "violated: align_corners=False unnormalisation of an align_corners=True grid (3D: exact only for sizes <=3 with border padding), and in 2D the axes are swapped (transposed kernel). Prove the exact positive part and counterexamples; partial.")
# ---------------- kernels
p("Lifting kernel formula",
  "GLiftingKernel.forward(H) has shape (out_channels, |H|, in_channels/groups, *kernel_size) and entry (co,h,ci,x) is mask(x) * [weight(co,ci) sampled at H[h]^-1 applied to grid_Rn](x) / det(H[h]).",
  "all channel counts, groups, grids H, kernel sizes, samplers", "Reshape/repeat bookkeeping must be right for every size combination.", [N+"kernels/kernel.py:GLiftingKernel.forward"],
  "row-major tensor model with view, repeat, repeat_interleave, broadcasting; index arithmetic.")
p("Group kernel formula",
  "GKernel.forward(in_H,out_H) has shape (out_channels,|out_H|,in_channels/groups,|in_H|,*kernel_size) and entry (co,o,ci,i,x) is mask(x) * [group-sampled weight channel at out_H[o]^-1 in_H[i], spatially sampled at out_H[o]^-1 grid_Rn](x) / det(out_H[o]).",
  "all sizes incl. |in_H| != |out_H|", "Reshape bookkeeping for all size combinations.", [N+"kernels/kernel.py:GKernel.forward"],
  "same tensor model.")
p("Separable and subgroup kernels pair the right group elements",
  "GSeparableKernel.forward / GSubgroupKernel.forward return group weights whose entry (co,o,ci,i) is the weight sampled at out_H[o]^-1 in_H[i], with shape (out_channels,|out_H|,in_channels/groups,|in_H|,1,..), for all grid sizes.",
  "all |in_H|, |out_H|", "Tests use equal grids, where the bug is invisible.", [N+"kernels/kernel.py:GSeparableKernel.forward,GSubgroupKernel.forward"],
  "holds when |in_H|=|out_H|; for different sizes the view uses swapped extents: prove shape (co,|in|,ci,|out|) and a counterexample; partial.")
p("Every group weight parameter is used exactly once",
  "The group-channel reshape in GKernel/GSeparableKernel/GSubgroupKernel maps (co,ci) to parameter positions bijectively, so no parameter is shared or dropped (although entry (co,ci) does not read parameter [.,co,ci] in general).",
  "all out_channels, in_channels/groups", "All sizes.", [N+"kernels/kernel.py:GKernel.forward,GSeparableKernel.forward,GSubgroupKernel.forward"],
  "index bijection (ci*CO+co) -> (q/CI, q%CI); scramble counterexample.")
p("mask=False disables the mask",
  "Constructing any premade kernel with mask=False yields an unmasked kernel, with mask=True a masked one.",
  "all premade kernels and sizes", "API contract across twelve classes.", [N+"kernels/kernel_sen/kernel_se2.py", N+"kernels/kernel_sen/kernel_se3.py", N+"kernels/kernel_en/kernel_e2.py", N+"kernels/kernel_en/kernel_e3.py"],
  "holds for SE3, E2, E3; violated by the three SE2 kernels; partial.")
p("Default sampling width reflects grid density",
  "With width 0.0 the premade kernels use 0.8 times the mean nearest-neighbour distance of the (rotation/reflection) reference grid.",
  "all reference grids", "All grids.", [N+"kernels/kernel_sen/kernel_se3.py", N+"kernels/kernel_en/kernel_e3.py", N+"kernels/kernel_sen/kernel_se2.py"],
  "proved for SE3; for SE2/E2 the width is the constant 0.8*acos(1-eps); for E3 10-vectors are treated as quaternions: exact value proved and shown different; partial.")
p("Group weights depend only on relative group elements",
  "Multiplying in_H and out_H on the left by the same group element leaves the sampled group weights of the SE2/SE3/E2/E3 kernels unchanged.",
  "all group elements, grids, weights", REAL, [N+"kernels/kernel.py", N+"kernels/kernel_sen", N+"kernels/kernel_en"],
  "(g out)^-1 (g in) = out^-1 in in each parameterization.")
p("Spatial weights rotate with lattice symmetries",
  "For every lattice symmetry g (signed permutation matrix representable in the group), the spatial kernel for g*h is the kernel for h with its cells moved by g (times det(g) for E2/E3).",
  "all lattice symmetries, kernel sizes, weights, grids H, samplers", "All symmetries, sizes, weights.", [N+"kernels/kernel.py", N+"functional/grid.py", N+"functional/mask.py"],
  "grid symmetric under signed permutations.")
# ---------------- conv
p("Constructor validation",
  "GroupConvNd accepts a configuration exactly when: a tuple group_kernel_size has no negative entry and positive sum, groups>0 divides in_channels and out_channels, a padding string is 'same' or 'valid' with 'same' requiring unit strides, padding_mode is one of the four known modes and conv_mode is '2d' or '3d'; otherwise it raises ValueError.",
  "all configurations with strides and dilations given as tuples (as the 2d and 3d classes pass them)", "Infinite configuration space.", [N+"modules/gconv.py:GroupConvNd.__init__"],
  "decision-logic model, iff theorem.")
p("'same' padding keeps the spatial size",
  "With padding='same' and stride 1 the stored padding pairs give, for every kernel size and dilation, total padding dilation*(k-1) per axis in the (reversed) order F.pad expects, left=total//2, so lifting and full group convolutions preserve the spatial size in every padding mode.",
  "all kernel sizes, dilations, spatial sizes", "All sizes.", [N+"modules/gconv.py:GroupConvNd.__init__,_conv2d_forward,_conv3d_forward"],
  "model the loop filling the list.")
p("Lifting convolution formula",
  "GLiftingConv forward returns shape (N,out_channels,|H|,*out) and value sum over input channels of the channel group and kernel cells of padded input times the lifting kernel entry (co,h,ci,.) plus bias[co], together with H itself.",
  "all inputs, sizes, strides, paddings, dilations, groups", "All sizes.", [N+"modules/gconv.py:GLiftingConvNd.forward"],
  "tensor model of F.conv with groups; view lemmas.")
p("Group convolution formula",
  "GConv forward returns (N,out_channels,|out_H|,*out) with value the sum over the input channels of the channel group, all input group elements and kernel cells of padded input times kernel entry (co,o,ci,i,.), plus bias[co].",
  "all inputs, sizes, groups", "All sizes.", [N+"modules/gconv.py:GConvNd.forward"],
  "same.")
p("Separable convolution equals group mixing followed by a depthwise spatial convolution of the same geometry",
  "GSeparableConv forward has the same output spatial size as GConv with the same stride/padding/dilation and equals a pointwise group convolution followed by one spatial convolution.",
  "all strides, paddings, dilations, padding modes", "Tests only use padding='same' with zeros or no padding, stride 1.", [N+"modules/gconv.py:GSeparableConvNd.forward"],
  "holds for stride 1 and padding 0/'valid'/'same'+zeros; violated otherwise (stride and padding are applied twice): size formula and counterexample; partial.")
p("Translation equivariance",
  "Shifting the input of a lifting or group convolution (stride 1) by an integer vector shifts the output by the same vector wherever both windows stay inside the signal; exactly everywhere for circular padding 'same'.",
  "all inputs, shifts, kernels", "All shifts and inputs.", [N+"modules/gconv.py"],
  "window reindexing.")
p("Rotation equivariance of the lifting convolution",
  "For every lattice symmetry g, rotating the input image by g and multiplying H by g on the left rotates the output of the SE2/SE3 lifting convolution by g, for every group grid H, weight, sampler, symmetric padding, dilation and kernel size of at least 2.",
  "all inputs, weights, grids H, lattice symmetries", "All of these.", [N+"modules/gconv.py:GLiftingConvNd.forward", N+"modules/gconv_sen/gconv_se2.py", N+"modules/gconv_sen/gconv_se3.py"],
  "kernel rotation property plus reindexing of the conv sum.")
p("Rotation equivariance of group and separable convolutions",
  "For every lattice symmetry g, rotating the spatial part of the input by g and multiplying in_H and out_H by g on the left rotates the output of SE2/SE3 GConv (and of the separable convolution when |in_H|=|out_H|), for kernel sizes of at least 2.",
  "all inputs, weights, grids, lattice symmetries", "All of these.", [N+"modules/gconv.py:GConvNd.forward,GSeparableConvNd.forward"],
  "same.")
p("E(n) convolutions are equivariant to reflections",
  "The E3/E2 convolutions satisfy the same equivariance for elements of coefficient -1.",
  "all inputs, weights, grids", "Signs cancel in many tests.", [N+"kernels/kernel.py", N+"modules/gconv_en/gconv_e3.py"],
  "violated: dividing by det gives an extra factor det(g) per layer: prove equivariance up to the factor det(g), hence failure for any non-zero output; partial.")
p("Pooling over group and space yields invariants",
  "GAvgGlobalPool (and the values of GMaxGlobalPool) are unchanged when group and spatial positions are permuted; hence lifting convolution + GAvgGlobalPool on a group grid closed under a lattice symmetry g is invariant under rotating the input by g.",
  "all inputs, permutations, closed grids", "All of these.", [N+"modules/pooling.py:GAvgGlobalPool,GMaxGlobalPool,GAvgGroupPool,GMaxGroupPool"],
  "permutation invariance of sums and maxima; combination with equivariance.")
p("Group pools return a tensor",
  "GAvgGroupPool/GAvgGlobalPool/GMaxGroupPool/GMaxGlobalPool return a single tensor with the group axis (and spatial axes) reduced.",
  "all inputs", "API contract.", [N+"modules/pooling.py"],
  "holds for the averages; the max variants return a (values, indices) pair: modelled result type and proved; partial.")
p("Spatial pools keep batch, channel and group axes",
  "The spatial pooling modules return (pooled, H) with pooled of shape (N,C,|H|,*pooled_spatial).",
  "all inputs and pool sizes", "Shape-dependent.", [N+"modules/pooling.py:GMaxSpatialPool2d"],
  "violated: .view(*x.shape[:3]) raises unless the pooled spatial volume is 1, and then drops the spatial axes; exact condition proved; partial.")
p("Normalisation layers treat the group axis as spatial",
  "GBatchNorm/GInstanceNorm return a tensor of the input's shape and H unchanged; statistics pool over the group axis, so permuting group positions of the input permutes the output in the same way.",
  "all inputs, permutations", "All inputs.", [N+"modules/normalization.py"],
  "view round trip and permutation-invariant statistics.")
p("Activations act pointwise and pass H through",
  "GReLU/GGELU/GLeakyReLU return the activation applied to every entry and exactly the H they were given, hence commute with every permutation of positions; GWrap does the same for any module.",
  "all inputs", "All inputs.", [N+"modules/activations.py", N+"modules/wrappers.py"],
  "pointwise map; GWrap's constructor assigns a submodule before Module.__init__ and always raises: partial.")
p("Default grids and output grid permutation",
  "Lifting layers use the kernel grid when H is None; SE2/SE3 group layers use in_H as out_H, E2/E3 use the kernel grid; with permute_output_grid=False the returned grid is the chosen grid unchanged, with True it is the chosen grid with every element multiplied on the left by one random group element.",
  "all inputs, grids, random draws", "All draws.", [N+"modules/gconv_sen/gconv_se2.py:forward", N+"modules/gconv_en/gconv_e2.py:forward"],
  "model of the six forward methods.")
p("Convolutions are linear in the input",
  "Without bias, lifting/group/separable convolution outputs are linear in the input for fixed weights and grids; bias adds bias[co] at every position.",
  "all inputs and scalars", "All inputs.", [N+"modules/gconv.py"],
  "linearity of finite sums.")
p("The order of the group grid does not matter",
  "A lifting or group convolution's output at a grid position depends only on the group element at that position: listing the output grid in another order, or repeating elements, only reindexes the output; listing the input grid in another order together with the group axis of the input changes nothing.",
  "all inputs, weights, grids, reindexings", "All orders of all grids.", [N+"modules/gconv.py:GroupConvNd,LiftingConvNd", N+"kernels/kernel.py:forward_interpolate"],
  "locality of kernel sampling plus the convolution formula; permutation of finite sums.")
p("Whole networks are equivariant, pooled outputs invariant",
  "A network of any depth made of a lifting convolution, then any sequence of group convolutions, activations and normalisation layers, maps an input turned by a lattice rotation in the grid to the turned feature map, with group positions permuted by left multiplication; global average pooling at the end is unchanged.",
  "all depths, layer sequences, weights, inputs, grids closed under the rotation", "Any depth and any order of layers.", [N+"modules/gconv_sen/gconv_se2.py", N+"modules/gconv_sen/gconv_se3.py", N+"modules/activations.py", N+"modules/normalization.py", N+"modules/pooling.py"],
  "per-layer equivariance on moved feature maps, induction over the list of layers, invariance of the pool.")
p("Running statistics after any history of batches",
  "GBatchNorm/GInstanceNorm with tracked statistics hold, after any sequence of training batches, the cumulative average (momentum None) or the exponentially weighted average (momentum m) of the per-batch statistics and the number of batches; evaluation mode changes nothing.",
  "all histories of batches", "Histories are unbounded.", [N+"modules/normalization.py:GBatchNorm2d,GInstanceNorm2d"],
  "induction over the history.")
p("Layer normalisation over channel, group and space",
  "GLayerNorm normalises every sample by the mean and biased variance over exactly its normalised axes, applies the elementwise affine, keeps the shape, passes H through and rejects inputs whose trailing axes differ from the normalised shape.",
  "all inputs and shapes", "All inputs.", [N+"modules/normalization.py:GLayerNorm"],
  "explicit formula; permutation of the normalised positions.")
p("Random grids are uniformly distributed",
  "The rows of so2/o2/o3 random_grid, so3.random_quat, so3.random_matrix and s2.random_s2 are independent and Haar-uniform: multiplying each row by any group element leaves the joint law unchanged, so2 angles hit an arc with probability proportional to its length; the random move that permute_output_grid applies is uniform from the left and from the right; draws for which a division by zero would occur have probability zero.",
  "all sizes, all group elements, all events", "A law of a random variable is not observable from finitely many draws.", [G+"so2.py:random_grid", G+"o2.py:random_grid", G+"so3.py:random_quat,random_matrix", G+"o3.py:random_grid", G+"s2.py:random_s2", N+"modules/gconv_sen/gconv_se2.py:forward", N+"modules/gconv_sen/gconv_se3.py:forward"],
  "the generators as measurable maps of the draws (torch.rand uniform on [0,1), torch.randn standard normal, independent); rotation invariance of Lebesgue measure on the circle and of the Gaussian.")
p("Freshly constructed layers have centred independent parameters",
  "After constructing a kernel and a convolution of it all parameters are independent random numbers of mean 0 and variance 1/(3n), whatever the kernel's own earlier initialisation and the fresh memory held: lifting weights normal, the other weights and the bias uniform on [-1/sqrt n, 1/sqrt n]; n is the product of all axes of the weight but the first (for group kernels the first axis is the group axis, so output channels count as inputs).",
  "all channel counts, groups, kernel sizes, events", "A law is not observable from finitely many draws.", [N+"kernels/kernel.py:reset_parameters", N+"modules/gconv.py:reset_parameters"],
  "model of reset_parameters and of torch.nn.init; laws of affine images of the draws, independence by measurable maps.")
p("Outputs are linear in the parameters",
  "For a fixed input and fixed grids the output of lifting, group and subgroup convolutions is linear in weight and bias together; of separable convolutions in (group weight, bias) for a fixed spatial weight and in (spatial weight, bias) for a fixed group weight. Whether a call raises does not depend on the values of parameters or input, only on shapes and configuration; the same holds for linearity in the input.",
  "all kernels with linear samplers (all premade ones), configurations (also those that raise), inputs, grids, parameters, scalars", "All parameter values and all configurations.", [N+"kernels/kernel.py", N+"modules/gconv.py", N+"functional/functional.py"],
  "a relation between three runs carried through every tensor operation of the model.")
p("Samples of a batch are processed independently",
  "Calling a convolution, activation, instance or layer normalisation, batch normalisation in evaluation mode, a pooling module or a whole network of such layers on a batch put together from samples of another batch (subset, repetition, reordering, single sample) raises exactly when the call on the other batch raises, and otherwise returns the corresponding samples of its result.",
  "all kernels, configurations, parameters, inputs, non-empty batches, selections of samples, depths", "All batches and all networks.", [N+"modules/gconv.py", N+"modules/normalization.py", N+"modules/activations.py", N+"modules/pooling.py"],
  "a relation between two runs carried through every tensor operation; induction over the layers.")
p("Receptive field of the convolutions",
  "An output value at a position depends only on the same sample, on the input channels of its channel group and on the input cells under the kernel window placed there (start at o*stride - padding, extent of the dilated kernel, steps of the dilation); changing one input value changes it by that change times the sampled kernel values lying over it.",
  "all kernels, weights, inputs, grids, strides, paddings, dilations, padding modes, channel groups, positions", "All pairs of inputs agreeing on the window.", [N+"modules/gconv.py:LiftingConvNd,GroupConvNd,GSubgroupConvNd,GSeparableConvNd"],
  "two runs of the convolution formulas compared term by term; the zero-padded window in closed form.")
p("Geodesic distances are angles and satisfy the triangle inequality",
  "geodesic_distance_s2 of two unit vectors is the angle between them cut off at arccos(1-eps) from 0 and pi; it is symmetric and unchanged when both points are moved by one orthogonal matrix; the SO(2), SO(3) and S2 distances satisfy the triangle inequality although they are cut off.",
  "all unit vectors, angles, unit quaternions and 0 <= eps <= 1", REAL, [G+"s2.py:geodesic_distance_s2", G+"so2.py:geodesic_distance", G+"so3.py:geodesic_distance"],
  "arccos of a clamped cosine is the clamped angle; triangle inequality of Mathlib's angle.")
p("The energy that repulsion minimises",
  "The quantity repulse differentiates is the mean, over the ordered pairs of different rows, of energy(distance/constant), whenever no row is closer to another row than to itself, which holds for the grids of uniform_grid_s2 and so3.uniform_grid; it does not depend on the order of the rows, is unchanged when all rows move by one isometry, and moving all pairs further apart lowers it.",
  "all grids, transforms, metrics, energies", REAL, ["gconv/geometry/repulsion.py:repulse", G+"s2.py:uniform_grid_s2", G+"so3.py:uniform_grid"],
  "sorting a row and dropping its first entry removes the distance to itself; sums over pairs.")
p("Layers do not share state",
  "Every layer owns its tensors: load_state_dict on one layer sets exactly its own tensors to the loaded values and changes no other layer, no tensor held by the user and no later result of so3.uniform_grid; nothing but load_state_dict on a layer (or an in-place write to its grid after reading it off the layer) changes its parameters or its grid; without such writes no existing tensor ever changes.",
  "all histories of constructing layers, requesting and caching grids, loading states, writing in place", "Histories are unbounded and sharing shows only in particular interleavings.", [G+"so3.py:uniform_grid", "gconv/geometry/groups/_grid_cache.py:load_grid", N+"kernels/kernel.py:GKernel", N+"kernels/kernel_sen/kernel_se3.py", N+"kernels/kernel_sen/kernel_so3.py"],
  "model of tensor identity (which calls return an existing object); ownership invariant over all histories.")
p("Saving and restoring a kernel",
  "Loading the state of a kernel into a kernel constructed with the same arguments (whatever reference grid it drew or was given) gives a kernel that behaves exactly like the saved one; a state with a grid of another shape is rejected.",
  "all arguments, reference grids, random draws", "The second construction may draw any random grid.", [N+"kernels/kernel.py:GroupKernel", N+"kernels/kernel_sen/kernel_se2.py", N+"kernels/kernel_sen/kernel_se3.py", N+"kernels/kernel_en/kernel_e2.py", N+"kernels/kernel_en/kernel_e3.py"],
  "model of state_dict/load_state_dict on the constructed kernels; a 25-element counterexample with two widths (diagonally dominant RBF systems).")
p("Kernels with default settings can be evaluated",
  "Group and separable kernels of SE(2), SE(3), E(2) and E(3) constructed with the default reference grid, sampling mode (or 'nearest') and width can be evaluated: forward returns tensors of the documented shapes for all parameters and all grids of group elements; in particular the RBF system that sampling solves is never singular.",
  "all group kernel sizes, kernel sizes, channels, groups, weights, input and output grids", "The RBF system may be singular for one particular size; all sizes and all grids.", [N+"kernels/kernel_sen/kernel_se2.py", N+"kernels/kernel_sen/kernel_se3.py", N+"kernels/kernel_en/kernel_e2.py", N+"kernels/kernel_en/kernel_e3.py", G+"so3.py:grid_sample,nearest_neighbour_distance", "gconv/geometry/interpolation.py:interpolate_rbf", "gconv/geometry/groups/_grid_cache.py"],
  "SO(2): diagonal dominance of the Gaussian matrix; SO(3): verified interval arithmetic on the shipped tables, positive definiteness by LDL certificates checked by the kernel.")
KFILES = [N+"kernels/kernel.py", N+"kernels/kernel_sen/kernel_se2.py", N+"kernels/kernel_sen/kernel_se3.py", N+"kernels/kernel_en/kernel_e2.py", N+"kernels/kernel_en/kernel_e3.py"]
p("Stored filters are recovered at the reference elements",
  "Wherever out_H[o]^-1 * in_H[i] is reference element k, slice (o,i) of a group kernel is stored filter k moved to out_H[o] (resampled at out_H[o]^-1 x, masked, divided by the determinant), and entry (o,i) of the group part of a separable kernel is stored weight k: the sampler interpolates, it does not smooth.",
  "all kernels of SE(2), SE(3), E(2), E(3), weights, grids, sampling modes rbf and nearest", "All weights and all grids; the interpolation system may be singular for particular grids.", KFILES+["gconv/geometry/interpolation.py"],
  "the RBF solution reproduces its data, nearest neighbour returns the element itself when the reference elements are further apart than the distance cut-off.")
p("A given reference grid overrides group_kernel_size",
  "A kernel constructed with grid_H behaves as one whose group_kernel_size is the number of elements of grid_H, whatever group_kernel_size was passed (docstring: 'If provided, will overwrite given group_kernel_size').",
  "all arguments, grids, sizes", "All pairs of grid and size.", KFILES,
  "equality of the constructed kernels; for E(n) the sampling system with mismatched sizes.")
p("Results depend on group elements, not on the numbers representing them",
  "Replacing the angles of the input and output grids by angles that represent the same group elements (full turns added) changes neither kernels nor layer outputs nor errors; more generally two elements acting identically on the plane give identical kernel slices.",
  "all kernels of SE(2) and E(2), parameters, inputs, grids, representatives", "All representatives.", KFILES+[G+"so2.py", G+"o2.py"],
  "all uses of the grids go through the action, the determinant and the products modulo full turns.")
p("Resampling never leaves the range of the stored filters",
  "Lifting kernels, and group kernels with nearest-neighbour sampling on the group, are never larger in absolute value than the stored filters, at any group elements and with any spatial mode and padding; with border or reflection padding every cell kept by the mask lies between the minimum and the maximum of the filter (up to the sign of the element), so constant filters are reproduced exactly; cells outside the mask are zero; layer outputs are bounded by (number of channels, group elements and kernel cells entering) * max|input| * max|weight| + |bias|.",
  "all kernels of SE(2), SE(3), E(2), E(3), weights, grids, sizes, inputs", REAL, KFILES+["gconv/geometry/interpolation.py", N+"modules/gconv.py"],
  "grid_sample is a convex combination of the taps (sub-convex with zero padding); nearest neighbour picks one stored row; sums bounded term by term.")
p("Kernels and layers depend continuously on group elements, parameters and input",
  "With bilinear spatial sampling and (for group and separable kernels) rbf sampling on the group, kernels move continuously when weights and group elements move continuously, through every angle including full turns, half-turn rotations and the grid boundaries; hence layer outputs are continuous in input, weights, bias and grids jointly. There is no jump at cell boundaries, at the wrap-around of angles or at the ambiguous quaternion sign.",
  "all kernels of SE(2), SE(3), E(2), E(3), paddings zeros/border/reflection, continuous families of parameters, grids and inputs over any topological space", "Continuity is a statement about all nearby inputs.", KFILES+["gconv/geometry/interpolation.py", N+"modules/gconv.py"],
  "bilinear taps as hat functions, reflection as distance to a lattice; the geodesic distance through the trace; RBF solution by continuity of finite sums.")
p("With randomly moved grids, networks are equivariant and invariant in distribution, for every grid",
  "With permute_output_grid=True the group elements need not be closed under the rotation: for every lattice rotation (quarter turns of square-lattice images, the 24 rotations of volumes), the result of lifting convolution and any chain of activations, normalisations, group and separable convolutions on the turned image is distributed like the turned result, over the independent draws of all layers; with a global pooling at the end its distribution (and mean) is the same for the image and the turned image.",
  "all kernels of SE(2), SE(3), E(2), E(3), grids, parameters, images, depths, events", "An equality of laws; all events and all grids.", [N+"modules/gconv_sen/gconv_se2.py:forward", N+"modules/gconv_sen/gconv_se3.py:forward", N+"modules/gconv_en/gconv_e2.py:forward", N+"modules/gconv_en/gconv_e3.py:forward", N+"modules/pooling.py"],
  "measure preserving maps of the draws that multiply (or conjugate) the drawn elements, combined with the equivariance of C75 pass by pass.")
p("On the torus, networks commute with cyclic shifts",
  "With padding='same' and padding_mode='circular', rolling the image cyclically along any spatial axes by any amounts rolls the output of lifting convolution and any chain of group convolutions, activations, batch and instance normalisations (training or evaluation mode) by the same amounts, with the same group elements and the same errors; with a global pooling at the end the output does not change at all. (Separable convolutions pad twice, C62, and are excluded.)",
  "all kernel objects, parameters, grids, image sizes, shifts, depths", "All shifts, sizes and depths.", [N+"modules/gconv.py", N+"modules/normalization.py", N+"modules/activations.py", N+"modules/pooling.py"],
  "circular convolution as a sum over the torus; both passes either fit or raise; statistics are invariant under bijections of the positions.")
p("Without padding, networks commute with cropping",
  "With padding 0 or 'valid' (any stride, dilation, padding_mode, kernel, grids), whenever a chain of convolutions, activations and evaluation-mode normalisations accepts a crop of the image it accepts the image, and its features on the crop are exactly its features on the image from position u on, where the crop starts at u times the product of the strides; so features do not depend on anything outside the crop. A separable convolution counts with the square of its stride, because both of its stages step by it (C62).",
  "all kernel objects, parameters, grids, image sizes, crops, strides, dilations, depths", "All crops, sizes, strides and depths.", [N+"modules/gconv.py", N+"modules/normalization.py", N+"modules/activations.py"],
  "windows of the unpadded convolution never leave the image; arithmetic of output extents; induction over the layers.")
p("Inputs that do not fit are rejected",
  "A layer called on an input whose number of channels, number of group elements (with respect to in_H), number of axes or spatial extents do not fit the layer raises an error instead of returning numbers; an input that fits is accepted.",
  "all kernel objects, parameters, grids, layer configurations and input shapes", "All shapes; a test can only try some misfits.", [N+"modules/gconv.py"],
  "lifting layers: exact characterisation for batched inputs; group layers: only the product of the axes is checked, so the exact condition is on that product; the inputs accepted beyond it are exhibited.")
p("On a grid that is a finite group, a group element acts by permuting the group axis",
  "With permute_output_grid=False and a grid of different elements that the lattice symmetry g maps to itself, the feature map a network of any depth returns for the turned input is, at the position of g h on the group axis, the turned feature map at the position of h; with the default grid of n rotations, turning by 2 pi j / n moves the group axis cyclically by j, and with the default O(2) grid of n rotations and n reflections each half is moved cyclically. The default SO(2) and O(2) grids, cyclic(n, axis), klein_group() and tetrahedral() are such grids.",
  "all networks, sizes, grids, parameters, inputs", "All networks, inputs and elements.", [N+"modules/gconv_sen/gconv_se2.py", N+"modules/gconv_sen/gconv_se3.py", N+"modules/gconv_en/gconv_e2.py", N+"modules/gconv_en/gconv_e3.py", G+"so3.py:cyclic, klein_group, tetrahedral"],
  "from the equivariance of networks (C75), the grids returned by the layers (C72) and distinctness of the grid elements.")
p("The printed description of a layer determines its configuration",
  "Every layer the public 2d and 3d constructors accept can be printed, and two layers with the same printed description have the same channels, kernel size, group kernel size, groups, stride, dilation, padding mode, presence of bias and dimension, and paddings that stand for the same amounts (all-zero paddings are not shown); the description of a kernel shows whether it is masked.",
  "all constructor arguments", "All pairs of configurations.", [N+"modules/gconv.py:extra_repr", N+"kernels/kernel.py:extra_repr"],
  "the text is modelled character by character; it is parsed back from the left: digits and brackets delimit numbers and tuples, the keys of the options are pairwise no prefixes of each other. Base classes with an integer dilation raise TypeError when printed (finding).")
p("The program in the README",
  "The program of README.md (GLiftingConvSE3, GSeparableConvSE3, GAvgGlobalPool with default arguments) runs for every batch size, every number of channels, every kernel size and every volume that leaves room for two kernels, whatever the parameters, the volume and the random draws; each feature map comes with its 4 group elements, and the result has shape (batch, channels, 1) and is the mean over group and space. For a volume turned by a rotation of the voxel grid the result has the same distribution; in distribution only: there are parameters and a volume whose features are all zero with positive probability and all positive with positive probability.",
  "all sizes, parameters, volumes and draws; all 24 rotations of the voxel grid", "A run shows one volume, one set of parameters and one draw.",
  ["README.md", N+"modules/gconv_sen/gconv_se3.py:GLiftingConvSE3", N+"modules/gconv_sen/gconv_se3.py:GSeparableConvSE3", N+"modules/pooling.py:GAvgGlobalPool"],
  "model of the program (Model/Readme.lean); composition of C60, C62, C68, C87 with the geometry of the defaults; invariance in distribution from C93. C99_violated_deterministic: a filter supported in one corner of the cube, which the shipped rotations do not reach and other rotations do.")
p("Custom groups",
  "If the callables a user hands to the kernel classes are the operations of a group (elementwise inverse, product, an action on vectors, and, if given, a multiplicative determinant) and his samplers work pointwise, then the lifting, group and separable convolutions built from them are equivariant: moving the image by a lattice symmetry that an element g induces on the kernel grid, and the group elements by g, moves the output and divides it by det g.",
  "all groups, actions, determinants, samplers, kernels, parameters, layer geometries, images and grids of group elements", "The groups are the user's; no test of the library sees them.",
  ["README.md", "gconv_tutorial.ipynb", N+"kernels/kernel.py:GLiftingKernel", N+"kernels/kernel.py:GSeparableKernel", N+"kernels/kernel.py:GKernel", N+"modules/gconv.py"],
  "the callables are specified by Mathlib's Group (Spec/Custom.lean); cancellation of g in inverse(g h) (g k), then the general equivariance lemmas of C64-C66. Concrete case: the inversions of space.")
p("The tutorial notebook",
  "The custom SE(2) convolutions of the tutorial: its group operations are those of the plane rotations; the program runs for all sizes and returns feature maps of the announced shapes and values; the layers are equivariant under quarter turns; grid_sample_so2 interpolates a signal on a uniform grid linearly between the two neighbours of the query, so it returns the stored value at a grid element and 1 for the constant signal 1.",
  "all sizes, parameters, images, angles, signals, and all choices of torch.topk among ties", "All angles and sizes, all ties.",
  ["gconv_tutorial.ipynb", N+"kernels/kernel.py:GLiftingKernel", N+"kernels/kernel.py:GSeparableKernel", N+"modules/gconv.py:GLiftingConv2d, GSeparableConv2d"],
  "model of the notebook cells (Model/Tutorial.lean), top-k with unspecified ties; C50, C52, C60, C62 for the values, cancellation for the equivariance. The interpolation claim is false: topk(largest=False) of inner products takes the two farthest elements (the vectors to the corners of a regular polygon sum to zero, so the two smallest cosines have a sum that is not positive).")
p("Results do not depend on the memory layout",
  "Two tensors with the same entries but different strides (row-major, transposed, rotated with torch.rot90, sliced, expanded, channels-last) give the same outputs, the same errors and the same running statistics in the convolution and normalisation layers.",
  "all strides and storage offsets of the input, all layouts of intermediate results, all layers, parameters and sizes", "All strides and sizes; tests use new, contiguous tensors.",
  [N+"modules/gconv.py:GLiftingConvNd.forward, GConvNd.forward, GSeparableConvNd.forward", N+"modules/normalization.py"],
  "strided tensors and ATen's computeStride (Torch/Strided.lean): `view` succeeds exactly if some strides describe the new shape (soundness and completeness of computeStride), `reshape` always; splitting an axis is always possible, merging two exactly if they can be counted through with one stride. The normalisations merge with `view`, so they raise for other layouts.")
p("Small changes of the input lead to small changes of the output",
  "For every layer and every network (lifting, convolution, separable, activation, normalisation layers and global pooling) and every input shape there is a constant, such that two inputs of this shape that differ by at most eps everywhere give outputs on the same grid that differ by at most the constant times eps, or both raise the same error. The constants of the single layers are explicit: fan-in times the largest sampled kernel value for convolutions; 1, 2 and max(1, |slope|) for ReLU, GELU and leaky ReLU; 2 (1 + sqrt(n)) / sqrt(eps) times the largest scale for normalisations over n values; 1 for pooling. Normalisation with eps = 0 has no such constant.",
  "all layers, kernels, parameters, networks of any depth, shapes, inputs and perturbations", "A bound over all pairs of inputs.",
  [N+"modules/gconv.py", N+"modules/activations.py", N+"modules/normalization.py", N+"modules/pooling.py"],
  "bounds for the sums of the convolution, derivative bounds for the activations, Cauchy-Schwarz for the standard deviation; networks by induction, the reference input 0 fixes the shapes and the grid of the next layer.")
p("The shipped rotation grids are spread out",
  "For n = 2, ..., 24 different rotations of so3.uniform_grid(n, 'matrix') are at least 3.140, 2.640, 2.812, 2.429, 2.118, 2.030, 1.756, 1.904, 2.014, 1.894, 1.812, 1.735, 1.739, 1.539, 1.596, 1.640, 1.682, 1.527, 1.603, 1.638, 1.521, 1.515, 1.488 radians apart (never less than 85 degrees), and the distances to the nearest other rotation computed by nearest_neighbour_distance differ by at most 23 percent within one grid.",
  "all shipped grids, all pairs of rotations", "Quantifies over all pairs of the shipped data, with exact real arithmetic in place of rounded arc cosines.",
  [G+"so3.py:uniform_grid, nearest_neighbour_distance, geodesic_distance", G+"_grid_cache.py"],
  "interval enclosures of all angles between the shipped quaternions (certificates of C87), comparison of the nearest ones.")
p("A separable layer is a full layer with product filters",
  "With strides 1 and no padding (or zero padding 'same'), and as many output as input elements, GSeparableConvSE2/E2/SE3/E3 compute what GConvSE2/E2/SE3/E3 with the same arguments compute when the full filters are the products weight_H[k, a, b] * weight[co, 0] of the group weights and the spatial filter of the output channel the entry (k, a, b) is read for: the same grid and the same feature maps on every input.",
  "all constructor arguments, parameters, inputs and grids of group elements, moved or not", "An identity between two classes for all parameters and inputs.",
  [N+"kernels/kernel.py:GSeparableKernel, GKernel", N+"modules/gconv.py:GSeparableConvNd, GConvNd", N+"modules/gconv_sen", N+"modules/gconv_en"],
  "homogeneity of the samplers from their linearity (C80), formulas of C51, C52, C61, C62; for other strides and paddings the two classes differ already in the shapes (C62).")
p("E(n) layers restricted to rotations are the SE(n) layers",
  "GLiftingConvE2/E3, GConvE2/E3 and GSeparableConvE2/E3 called with rotations (coefficient 1) return what GLiftingConvSE2/SE3, GConvSE2/SE3 and GSeparableConvSE2/SE3 with the same arguments return for these rotations, on every input, errors included: the same feature maps and the same rotations. Group and separable layers: when the reference grid of the E(n) kernel starts with the reference grid of the SE(n) kernel (as the default grids do), the stored weights at these positions are the same and the samplers have the same width; the weights stored for the reflections have no influence. E(2) with mask=True (SE(2) always masks); separable layers with as many output as input rotations.",
  "all constructor arguments, parameters, inputs, grids of rotations, drawn rotations", "An identity between classes for all parameters and inputs.",
  [N+"modules/gconv_en", N+"modules/gconv_sen", N+"kernels/kernel_en", N+"kernels/kernel_sen", G+"o2.py:grid_sample, inverse, left_apply_angle", G+"o3.py:grid_sample, inverse, left_apply_O3"],
  "the E(n) samplers split the query by the sign of the coefficient and look only at the rotations of the grid, so the kernel entries (C50, C51, C52) agree; the layers read the entries of their filters only (congruence of every operation of the forward passes).")
p("Premade layers built with their default grids can be used",
  "GLiftingConv, GConv and GSeparableConv for SE(2), SE(3), E(2), E(3), with default group grids and sizes (any for SE(2) and E(2) up to a million, 2 to 24 for SE(3) and per component of E(3), lifting layers over the plane without a bound), channel numbers divisible by groups and a kernel that fits into the padded input: the constructor returns a layer; calling it with any input, batch, grid of group elements, parameters and random draw returns feature maps of the announced shape together with the chosen grid, moved by the drawn element if permute_output_grid is set. In particular the calls of the repository's own tests succeed with the asserted shapes.",
  "all constructor arguments in these ranges, all parameters, inputs, batch sizes, grids, draws", "Every size, channel number, image extent and draw; the tests use one of each.",
  [N+"modules/gconv_sen", N+"modules/gconv_en", N+"kernels/kernel_sen", N+"kernels/kernel_en", "gconv/tests/test_gconv_se2.py", "gconv/tests/test_gconv_se3.py", "gconv/tests/test_gconv_e2.py", "gconv/tests/test_gconv_e3.py"],
  "default grids are accepted and their widths positive (C83-C87), constructors (C58), formulas of C60, C61, C62 for the success and the shapes.")
p("Channel groups do not mix",
  "With groups = g, the channels of block j of the output (the j-th of g consecutive blocks) depend on the channels of block j of the input only: two inputs of the same shape that agree on block j (and may differ anywhere else) give outputs on the same grid that agree on block j, or both raise the same error. Lifting, group, subgroup and separable layers of all four groups.",
  "all layers, kernels, samplers, parameters, strides, paddings, grids, batches and pairs of inputs", "A statement about all pairs of inputs.",
  [N+"modules/gconv.py:GLiftingConvNd.forward, GSeparableConvNd.forward, GConvNd.forward"],
  "every step of the forward pass (merging channel and group axis, padding, grouped convolution, depthwise convolution, splitting, bias) keeps the blocks apart; the constructor guarantees that g divides both channel numbers (C58).")
p("Contributions of the group elements add up",
  "The output of GConvSE2/SE3/E2/E3 is the sum over the input group elements h of the outputs of the same layer for the single part x[:, :, h:h+1] on the single element H[h:h+1] (called with the same output elements, without the bias), plus the bias: no input element changes what another one contributes.",
  "all constructor arguments, parameters, inputs and lists of group elements", "An identity between the outputs of n + 1 calls for all inputs.",
  [N+"modules/gconv.py:GConvNd.forward", N+"kernels/kernel.py:GKernel", N+"modules/gconv_sen", N+"modules/gconv_en"],
  "an entry of the sampled kernel depends only on the pair of group elements it stands for (C51, C74), formula C61, exchange of sums.")
p("Training on turned images",
  "A network (lifting convolution, activations, normalisations, group and separable convolutions, GAvgGlobalPool) trained on batches of images, and the same network trained on the same batches turned by lattice rotations (a different one for every batch) that permute the group elements used, go through the same parameters and the same running statistics, whatever the optimizer does with the pooled features as a function of the parameters: augmenting the data with these rotations has no effect on the training. The same holds for images rolled around the torus when the convolutions use padding='same' and padding_mode='circular', for every kernel object and configuration: the trainings then have the same outcome, also when they raise an exception.",
  "all networks of the chain, all histories of batches, all optimizers (with memory) that see the images through the pooled features only, all initial parameters", "Quantifies over histories of training steps and over optimizers.",
  [N+"modules/gconv.py", N+"modules/normalization.py", N+"modules/activations.py", N+"modules/pooling.py:GAvgGlobalPool", "README.md"],
  "a training step is a function of the map from parameters to features and of the running statistics; both agree for turned images (C75, C70), for all parameters of the same shapes; induction over the batches. On the torus by C94, with the running statistics of the normalisation layers.")
p("Residual and skip connections",
  "Networks with branches, in which feature maps of two branches are added (x + f(x)) or concatenated along the channels (torch.cat), nested in any way, built from activations, normalisation layers, group and separable convolutions that leave the group elements as they are: turning the image by a lattice rotation that permutes the (pairwise different) group elements turns the feature maps, and the globally pooled features do not change. In particular the group axes of two branches stay in the same order, so that adding them is meaningful.",
  "all networks of this kind, of any depth and nesting, all parameters, images and lattice rotations", "Quantifies over network structures and all inputs.",
  [N+"modules/gconv.py", N+"modules/gconv_sen", N+"modules/gconv_en", N+"modules/activations.py", N+"modules/normalization.py", N+"modules/pooling.py"],
  "networks as an inductive type (Model/Graph.lean), induction over it; two branches could permute the group axis differently, but the permutation is determined by the group elements when these are different; single layers by C75. Layers keep the group elements if permute_output_grid=False (E(n): on the reference grid).")
p("Convolutions over the subgroup act on the fibres only",
  "GConv3d with GSubgroupKernelSO3 (and GConvNd with any GSubgroupKernel), stride 1, no padding, as many output as input elements: the values of the output at a cell are a function of the values of the input at this cell, the same function for all cells, batches and images of any extents, and this function does not change if input and output elements are multiplied from the left by the same group element. So moving the cells in any way together with such a multiplication moves the output cells in the same way.",
  "all subgroup kernels, layer arguments, parameters, inputs of any extents, elements and rotations g", "Quantifies over all inputs, motions of the cells and rotations; no test calls a layer with a subgroup kernel.",
  [N+"modules/gconv.py:GConvNd.forward", N+"kernels/kernel.py:GSubgroupKernel", N+"kernels/kernel_sen/kernel_so3.py:GSubgroupKernelSO3"],
  "formula C61 for a filter with one cell; the sampled weights only use the relative elements (C52, C56).")
p("Rotation equivariance needs a symmetric geometry",
  "If some axis does not treat its two ends alike (the stride does not reach the last cell of the padded image, as for stride 2 with an even number of steps left over, or an even kernel with padding='same' pads one cell more on the right) GLiftingConvSE2 is not equivariant under half turns: for every group grid, stride, dilation, padding mode and kernel size of at least 3 there are weights and an image for which the output for the turned image (and turned group elements) differs from the turned output, even where no padding is read. So the symmetric geometry assumed in C64 cannot be dropped. The same holds for GLiftingConvE2 (with and without mask) and the half turn (1, pi).",
  "all layer arguments, grids and image extents with such an axis and a cell whose window and mirrored window stay inside", "Quantifies over all strides, dilations, paddings and extents.",
  [N+"modules/gconv.py:GroupConvNd, GLiftingConvNd.forward", N+"modules/gconv_sen/gconv_se2.py:GLiftingConvSE2", N+"modules/gconv_en/gconv_e2.py:GLiftingConvE2"],
  "weights 1 make the sampled kernel the circular mask, whose mean is its centre (C47); a linear image then gives the position of the window, and windows of mirrored outputs are not mirrored windows.")
p("Lattice elements use the exactly turned filter",
  "For kernel sizes 2 and 3, and for any size with nearest-neighbour interpolation, the output of GLiftingConvSE2/SE3/E2/E3 for a group element h that maps the kernel grid onto itself (a multiple of a quarter turn, a symmetry of the cube; in particular for the identity) is the ordinary convolution of the images with the filter stored in weight, masked and turned by h without any interpolation error (in the plane the stored filter is transposed; E(n): divided by the determinant coefficient).",
  "all constructor arguments in this range, parameters, images, grids and all of these elements", "Quantifies over all weights, images, sizes and symmetries.",
  [N+"modules/gconv.py:GLiftingConvNd.forward", N+"modules/gconv_sen", N+"modules/gconv_en", N+"kernels/kernel.py:GLiftingKernel", N+"functional/grid.py"],
  "formula C60; lattice symmetries permute the grid points (C46), the sampler is exact at grid points (C49), the mask is symmetric (C47).")
p("Convolutions in floating point arithmetic",
  "If every operation of a lifting or group convolution returns its exact result times 1 + d with |d| <= u (the standard model of rounding, u = 2^-24 in float32), the sums are formed in any order and grouping (BLAS, cuDNN, several threads), the stored filters are off by at most eta and bounded by W, the inputs bounded by B and the bias by beta, then every output is within ((1+u)^(n+1) - 1)(n B W + beta) + n B eta of the exact one, where n is the number of products of one output value (channels per group, input group elements, kernel cells). Hence GLiftingConvSE2/SE3 and GConvSE2/SE3 are equivariant under lattice rotations up to twice this bound, although the two evaluations add in different orders; GLiftingConvE2/E3 and GConvE2/E3 likewise, with the sign of C66 (the outputs without the bias are multiplied by the determinant of the group element).",
  "all constructor arguments, parameters, inputs, group elements, lattice rotations, rounding errors, orders and groupings of all sums", "Quantifies over all rounding errors and all orders of evaluation.",
  [N+"modules/gconv.py:GLiftingConvNd.forward, GConvNd.forward", N+"modules/gconv_sen/gconv_se2.py", N+"modules/gconv_sen/gconv_se3.py", N+"modules/gconv_en/gconv_e2.py", N+"modules/gconv_en/gconv_e3.py"],
  "floating point sums as an inductive relation (Spec/Rounding.lean: single terms, sums of two sums, permutations), the classical bound by induction over it; formulas C60, C61, equivariance C64, C65, C66 of the exact outputs, triangle inequality. The exact output is one of the possible evaluations.")
p("Rounding errors of whole networks",
  "If in a network (lifting convolution, activations, normalisations, group and separable convolutions, global average pooling) every layer is computed with an error of at most delta for the features it receives, which are inexact already, the result differs from the exact one by at most kappa delta, where kappa depends on the network and the shape of the input only, not on the images, the errors or delta. Hence for networks on SE(2), SE(3), E(2), E(3) the computed features of an image and of the image turned by a lattice rotation that permutes the group elements differ by at most kappa delta, with one kappa for all images: equivariance is lost at most in proportion to the precision of the arithmetic. (A lifting or group convolution in floating point is such a step, with the bound of C115 as its delta; batch and instance normalisation, in training or evaluation mode, need eps > 0 and running variances that are not negative.)",
  "all networks of the chain, parameters, images, lattice rotations, delta and errors of the layers", "Quantifies over all images, all networks and all error patterns.",
  [N+"modules/gconv.py", N+"modules/normalization.py", N+"modules/activations.py", N+"modules/pooling.py:GAvgGlobalPool", N+"modules/gconv_sen", N+"modules/gconv_en"],
  "inexact passes as an inductive relation (Spec/RoundedNet.lean), layers are Lipschitz with constants independent of the input (C103), induction over the layers, exact invariance C75, triangle inequality. An exact pass is an inexact pass.")
if __name__ == "__main__":
    with open(os.path.join(ROOT,"properties.jsonl"),"w") as f:
        for q in P:
            f.write(json.dumps({k:q[k] for k in ("id","title","statement","quantifier","why_tests_cant","anchors")})+"\n")
    with open(os.path.join(ROOT,"tools","plan_table.md"),"w") as f:
        for q in P:
            f.write("- **%s %s.** %s\n" % (q["id"], q["title"], q["plan"]))
    print(len(P))
