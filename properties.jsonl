{"id": "C01", "title": "SO(2) angles represent rotations faithfully", "statement": "so2.angle_to_matrix sends every angle to an orthogonal 2x2 matrix of determinant 1; the matrix of so2.left_apply_angle(a,b) is the product of the matrices of a and b; the matrix of so2.inverse_angle(a) is so2.inverse_matrix of the matrix of a and is its two-sided inverse; two angles have the same matrix exactly when they differ by a multiple of 2pi.", "quantifier": "all angles a, b (real numbers)", "why_tests_cant": "A test samples finitely many floats of an uncountable domain.", "anchors": ["gconv/geometry/groups/so2.py:angle_to_matrix,left_apply_angle,inverse_angle,inverse_matrix"]}
{"id": "C02", "title": "SO(2) composition is a normalised group law", "statement": "so2.left_apply_angle always returns an angle in [0,2pi), is associative and commutative, leaves already normalised angles unchanged when composed with 0, and composing any angle with its inverse_angle (on either side) returns 0. left_apply_to_angle returns, at position (i,j), exactly left_apply_angle(R1[i],R2[j]).", "quantifier": "all real angles; all batches of any sizes", "why_tests_cant": "A test samples finitely many floats of an uncountable domain.", "anchors": ["gconv/geometry/groups/so2.py:left_apply_angle,left_apply_to_angle,inverse_angle"]}
{"id": "C03", "title": "SO(2) uniform grid is the cyclic group of order n", "statement": "so2.uniform_grid(n) has exactly n angles, the k-th is 2*pi*k/n, they are strictly increasing and lie in [0,2pi), 0 is the first one (n>0), and the set is closed under left_apply_angle and (up to normalisation) inverse_angle.", "quantifier": "every n >= 0 and every pair of grid elements", "why_tests_cant": "Closure must hold for every n and every pair; tests look at one n.", "anchors": ["gconv/geometry/groups/so2.py:uniform_grid"]}
{"id": "C04", "title": "Random grids only contain valid group elements", "statement": "For every draw of the random generator: so2.random_grid angles lie in [0,2pi); o2.random_grid rows have a coefficient that is exactly 1 or -1 and an angle in [0,2pi); so3.random_quat returns unit quaternions and so3.random_matrix rotation matrices for every non-zero normal draw; o3.random_grid rows are a coefficient +-1 and a flattened rotation matrix.", "quantifier": "every size and every outcome of torch.rand / torch.randn (non-zero for quaternions)", "why_tests_cant": "The claim ranges over all outcomes of the generator.", "anchors": ["gconv/geometry/groups/so2.py:random_grid", "gconv/geometry/groups/o2.py:random_grid", "gconv/geometry/groups/so3.py:random_quat,random_matrix", "gconv/geometry/groups/o3.py:random_grid"]}
{"id": "C05", "title": "SO(2) acts on the plane by isometries", "statement": "so2.left_apply_angle_to_R2 returns at (n,w,h) the rotation of grid[w,h] by angle R[n]; it preserves inner products (hence lengths and distances), the zero angle acts as the identity, and acting with left_apply_angle(a,b) equals acting with b, then a.", "quantifier": "all angles, all vectors, all batch and grid sizes", "why_tests_cant": "A test samples finitely many floats of an uncountable domain.", "anchors": ["gconv/geometry/groups/so2.py:left_apply_angle_to_R2,left_apply_matrix_to_R2"]}
{"id": "C06", "title": "SO(2) geodesic distance", "statement": "so2.geodesic_distance(a,b,eps) is symmetric, invariant under applying the same rotation to both arguments, depends only on the rotations and not on the chosen angles, always lies in [acos(1-eps), acos(-1+eps)], and equals the arc length |a-b| whenever that is in [acos(1-eps), acos(-1+eps)] (which is within [0,pi]).", "quantifier": "all angles, all 0<=eps<=1", "why_tests_cant": "A test samples finitely many floats of an uncountable domain.", "anchors": ["gconv/geometry/groups/so2.py:geodesic_distance,geodesic_distance_euclid,angle_to_euclid"]}
{"id": "C07", "title": "SO(2) nearest neighbour distance is the distance to the nearest other element", "statement": "so2.nearest_neighbour_distance(grid) returns for each element the geodesic distance to the closest OTHER element of the grid.", "quantifier": "all grids of at least two angles", "why_tests_cant": "Any fixed grid may coincide by accident; the claim is about all grids.", "anchors": ["gconv/geometry/groups/so2.py:nearest_neighbour_distance", "gconv/gnn/kernels/kernel_sen/kernel_se2.py:GSeparableKernelSE2,GKernelSE2"]}
{"id": "C08", "title": "O(2) elements form a group under the API product", "statement": "o2.left_apply_angle on pairs (coefficient +-1, angle) returns a coefficient +-1 and an angle in [0,2pi); it is associative, (1,0) is neutral on normalised elements, o2.inverse yields the two-sided inverse, o2.det is multiplicative, and left_apply_to_angle is the pairwise table of left_apply_angle.", "quantifier": "all O2 elements, all batches", "why_tests_cant": "A test samples finitely many floats of an uncountable domain.", "anchors": ["gconv/geometry/groups/o2.py:left_apply_angle,left_apply_to_angle,inverse,det"]}
{"id": "C09", "title": "O(2) acts on the plane by isometries compatible with the product", "statement": "o2.left_apply_to_R2 returns at (n,w,h) coefficient*rotation applied to grid[w,h], preserves inner products, and acting with left_apply_angle(a,b) equals acting with b, then a; acting with inverse(a) undoes a.", "quantifier": "all O2 elements with coefficient +-1, all vectors", "why_tests_cant": "A test samples finitely many floats of an uncountable domain.", "anchors": ["gconv/geometry/groups/o2.py:left_apply_to_R2"]}
{"id": "C10", "title": "O(2) determinant is the determinant of the plane transformation", "statement": "o2.det(h) equals the determinant of the linear map of the plane by which left_apply_to_R2 lets h act, and different O2 elements (normalised) act differently.", "quantifier": "all O2 elements", "why_tests_cant": "A test samples finitely many floats of an uncountable domain.", "anchors": ["gconv/geometry/groups/o2.py:det,left_apply_to_R2"]}
{"id": "C11", "title": "O(2)/O(3) uniform grids list rotations first", "statement": "o2.uniform_grid((n,m)) has n+m rows: rows i<n are (1, 2*pi*i/n), rows n<=i<n+m are (-1, 2*pi*(i-n)/m).", "quantifier": "all n, m", "why_tests_cant": "All sizes at once.", "anchors": ["gconv/geometry/groups/o2.py:uniform_grid"]}
{"id": "C12", "title": "O(2)/O(3) grid_sample returns rows in the order of the query grid", "statement": "For a query grid in any order of rotations and reflections (coefficients +-1), row i of o2.grid_sample / o3.grid_sample is what so2/so3.grid_sample returns for the rotation part of query i against the rotation sub-signal if the coefficient is 1 and against the reflection sub-signal if it is -1.", "quantifier": "all query grids and signals with both sub-signals non-empty, any per-row sampler", "why_tests_cant": "The restore permutation must be right for every one of the exponentially many orders.", "anchors": ["gconv/geometry/groups/o2.py:grid_sample", "gconv/geometry/groups/o3.py:grid_sample"]}
{"id": "C13", "title": "O(2)/O(3) grid_sample when one coset has no weights", "statement": "If signal_grid_size has n_reflections = 0 (or n_rotations = 0), grid_sample succeeds exactly when the query grid contains no element of that coset, and raises an IndexError otherwise.", "quantifier": "all query grids and signals", "why_tests_cant": "Whether the error shows up depends on the (random) query grid.", "anchors": ["gconv/geometry/groups/o2.py:grid_sample", "gconv/geometry/groups/o3.py:grid_sample", "gconv/gnn/modules/gconv_en/gconv_e2.py:forward"]}
{"id": "C14", "title": "Axis rotation matrices", "statement": "so3.matrix_x/y/z send every angle to a rotation matrix (orthogonal, det 1) that fixes the named axis; the matrix of a sum of angles is the product; the matrix of -t is matrix_inverse.", "quantifier": "all angles", "why_tests_cant": "A test samples finitely many floats of an uncountable domain.", "anchors": ["gconv/geometry/groups/so3.py:matrix_x,matrix_y,matrix_z,matrix_inverse"]}
{"id": "C15", "title": "Unit quaternions represent rotations", "statement": "so3.quat_to_matrix sends every unit quaternion to a rotation matrix, Hamilton products to matrix products, quat_inverse to matrix_inverse, and q, -q (and only these, among unit quaternions) to the same matrix.", "quantifier": "all unit quaternions", "why_tests_cant": "A test samples finitely many floats of an uncountable domain.", "anchors": ["gconv/geometry/groups/so3.py:quat_to_matrix,quat_inverse"]}
{"id": "C16", "title": "matrix_to_quat inverts quat_to_matrix on all rotations", "statement": "For every rotation matrix R, so3.matrix_to_quat(R) is a unit quaternion and quat_to_matrix of it is exactly R, whichever of the four argmax branches is taken.", "quantifier": "all rotation matrices", "why_tests_cant": "The argmax branch taken depends on R; sets of measure zero (ties, trace -1) are never sampled.", "anchors": ["gconv/geometry/groups/so3.py:matrix_to_quat"]}
{"id": "C17", "title": "quat -> matrix -> quat returns the same rotation", "statement": "For every unit quaternion q, matrix_to_quat(quat_to_matrix(q)) is q or -q.", "quantifier": "all unit quaternions", "why_tests_cant": "A test samples finitely many floats of an uncountable domain.", "anchors": ["gconv/geometry/groups/so3.py:matrix_to_quat,quat_to_matrix"]}
{"id": "C18", "title": "Euler angles follow the extrinsic ZYZ convention", "statement": "so3.euler_to_matrix((alpha,beta,gamma)) equals Rz(gamma) Ry(beta) Rz(alpha) with every entry of absolute value at most eps replaced by 0 (so it is off by at most eps per entry and exact when eps=0); euler_to_quat is a unit quaternion of that rotation when eps=0.", "quantifier": "all Euler triples, all eps >= 0", "why_tests_cant": "A test samples finitely many floats of an uncountable domain.", "anchors": ["gconv/geometry/groups/so3.py:euler_to_matrix,euler_to_quat"]}
{"id": "C19", "title": "matrix_to_euler gives back the rotation", "statement": "For every rotation matrix R outside the eps-neighbourhood of gimbal lock, and at exact gimbal lock (beta = 0 or pi), rebuilding the (unmasked) matrix from matrix_to_euler(R) gives exactly R; near gimbal lock (0<beta<eps or 0<pi-beta<eps) the entries are off by at most 2*eps or so.", "quantifier": "all rotation matrices, 0<eps<1", "why_tests_cant": "Gimbal lock is a measure-zero set with its own code path.", "anchors": ["gconv/geometry/groups/so3.py:matrix_to_euler,euler_to_matrix"]}
{"id": "C20", "title": "matrix_to_euler output ranges", "statement": "Every angle returned by matrix_to_euler lies in [-pi,pi), the third angle is 0 whenever the rotation is treated as gimbal locked, and the step-7 adjustment never applies.", "quantifier": "all 3x3 matrices", "why_tests_cant": "A test samples finitely many floats of an uncountable domain.", "anchors": ["gconv/geometry/groups/so3.py:matrix_to_euler"]}
{"id": "C21", "title": "Gimbal lock warning", "statement": "matrix_to_euler emits the gimbal-lock warning whenever some rotation of the batch is gimbal locked (unless no_warn).", "quantifier": "all batches", "why_tests_cant": "Only mixed batches reveal it.", "anchors": ["gconv/geometry/groups/so3.py:matrix_to_euler"]}
{"id": "C22", "title": "left_apply_quat computes the quaternion product", "statement": "so3.left_apply_quat(q1,q2) returns the Hamilton product q1*q2.", "quantifier": "all quaternions", "why_tests_cant": "A stated API behaviour.", "anchors": ["gconv/geometry/groups/so3.py:left_apply_quat"]}
{"id": "C23", "title": "so3_log is a logarithm", "statement": "For every rotation R by an angle t with acos(1-eps) <= t <= acos(-1+eps), so3.so3_log(R) is t times the unit rotation axis, its norm is t, and the Rodrigues exponential of it is R; so3_log(I)=0.", "quantifier": "all rotation matrices", "why_tests_cant": "A test samples finitely many floats of an uncountable domain.", "anchors": ["gconv/geometry/groups/so3.py:so3_log"]}
{"id": "C24", "title": "quaternion_log", "statement": "For every unit quaternion cos(t)+sin(t)u (0<t<pi, |u|=1), so3.quaternion_log returns (0, t*u); for the identity it returns the zero vector; the scalar part is log|q| for every non-zero q.", "quantifier": "all unit quaternions", "why_tests_cant": "A test samples finitely many floats of an uncountable domain.", "anchors": ["gconv/geometry/groups/so3.py:quaternion_log"]}
{"id": "C25", "title": "SO(3) geodesic distance", "statement": "so3.geodesic_distance(q1,q2,eps) is symmetric, unchanged when q1 or q2 is negated, bi-invariant under quaternion multiplication by unit quaternions, lies in [acos(1-eps), pi/2], and equals half the rotation angle between the two rotations (acos((tr(R1^T R2)-1)/2)/2) whenever the quaternion inner product is at most 1-eps in absolute value.", "quantifier": "all unit quaternions, 0<=eps<=1", "why_tests_cant": "A test samples finitely many floats of an uncountable domain.", "anchors": ["gconv/geometry/groups/so3.py:geodesic_distance"]}
{"id": "C26", "title": "SO(3) nearest neighbour distance", "statement": "For a grid of at least two unit quaternions, so3.nearest_neighbour_distance returns for each element the minimum of the distances to the other elements; for fewer than two elements it raises IndexError.", "quantifier": "all grids of unit quaternions of any length", "why_tests_cant": "All grids and lengths.", "anchors": ["gconv/geometry/groups/so3.py:nearest_neighbour_distance"]}
{"id": "C27", "title": "SO(3) acts on R^3 by rotations", "statement": "so3.left_apply_to_R3 returns at (n,x,y,z) the product R[n]*grid[x,y,z]; for rotation matrices it preserves inner products; left_apply_matrix is compatible with it; left_apply_to_matrix is the pairwise product table; matrix_inverse is the two-sided inverse; products and inverses of rotations are rotations.", "quantifier": "all rotation matrices, vectors, batch sizes", "why_tests_cant": "A test samples finitely many floats of an uncountable domain.", "anchors": ["gconv/geometry/groups/so3.py:left_apply_to_R3,left_apply_matrix,left_apply_to_matrix,matrix_inverse"]}
{"id": "C28", "title": "The built-in polyhedral groups are groups of rotations", "statement": "so3.identity, klein_group, tetrahedral, octahedral, icosahedral list 1, 4, 12, 24, 60 pairwise different rotations (as quaternions up to sign); each contains the identity, is closed under the product and inverse up to sign, exactly for the first three and to 1e-7 per component for the last two; all entries have unit norm to 1e-7.", "quantifier": "all pairs of elements of each table", "why_tests_cant": "Tests do not check all 3600 products; the claim is about whole tables.", "anchors": ["gconv/geometry/groups/so3.py:identity,klein_group,tetrahedral,octahedral,icosahedral"]}
{"id": "C29", "title": "Cyclic subgroups of SO(3)", "statement": "so3.cyclic_x/y/z(n) returns n unit quaternions whose rotation matrices are the n rotations by 2*pi*k/n about the named axis; they are closed under product; cyclic dispatches on the axis letter case-insensitively and raises ValueError for anything else.", "quantifier": "all n, all axis strings", "why_tests_cant": "All n and all strings.", "anchors": ["gconv/geometry/groups/so3.py:cyclic,cyclic_x,cyclic_y,cyclic_z"]}
{"id": "C30", "title": "Grid cache behaves like a write-once map", "statement": "After any history of save_grid/load_grid calls, load_grid(size,type,param) (case-insensitive) returns the first grid saved under that key, or the last one saved with overwrite=True after it, other keys are unaffected, and a key never present raises KeyError; saving under an unknown type or parameterization raises KeyError.", "quantifier": "all histories of operations", "why_tests_cant": "Ranges over all histories.", "anchors": ["gconv/geometry/groups/_grid_cache.py:save_grid,load_grid"]}
{"id": "C31", "title": "uniform_grid honours its parameterization for every history", "statement": "so3.uniform_grid(size, parameterization, ..., cache_grid) returns a grid in the requested parameterization, whatever calls were made before.", "quantifier": "all histories of uniform_grid calls", "why_tests_cant": "Only a second call after a caching call reveals a problem.", "anchors": ["gconv/geometry/groups/so3.py:uniform_grid", "gconv/geometry/groups/_grid_cache.py"]}
{"id": "C32", "title": "Shipped grids are rotations", "statement": "For every size 1..24 the cached 'quat' grid has exactly size rows of unit norm (2e-4), the cached 'matrix' grid has size rotation matrices (orthogonality and determinant to 2e-4) describing the same rotations as the quaternion grid (3e-4).", "quantifier": "all table rows", "why_tests_cant": "Whole table, every row.", "anchors": ["gconv/geometry/groups/_grid_cache.py:_grid_cache"]}
{"id": "C33", "title": "O(3) elements form a group under the API product", "statement": "o3.left_apply_O3 on 10-vectors (coefficient, flattened matrix) multiplies coefficients and matrices, is associative, has neutral element (1,I), inverse is the two-sided inverse on orthogonal elements, det is multiplicative, left_apply_to_O3 is the pairwise table.", "quantifier": "all O3 elements, all batches", "why_tests_cant": "A test samples finitely many floats of an uncountable domain.", "anchors": ["gconv/geometry/groups/o3.py:left_apply_O3,left_apply_to_O3,inverse,det"]}
{"id": "C34", "title": "O(3) acts on R^3 by isometries and det is the true determinant", "statement": "o3.left_apply_to_R3 at (n,x,y,z) is coefficient*R applied to grid[x,y,z]; for coefficient +-1 and R a rotation it preserves inner products, is compatible with the product, and o3.det equals the determinant of the acting matrix.", "quantifier": "all O3 elements and vectors", "why_tests_cant": "A test samples finitely many floats of an uncountable domain.", "anchors": ["gconv/geometry/groups/o3.py:left_apply_to_R3,det"]}
{"id": "C35", "title": "O(3) uniform grid layout", "statement": "o3.uniform_grid((n,m)) has n+m rows, first n with coefficient 1 and the SO(3) grid of size n, then m with coefficient -1 and the SO(3) grid of size m; matrix_only returns just the matrices.", "quantifier": "all n, m for which the SO(3) grids are well-shaped", "why_tests_cant": "All sizes.", "anchors": ["gconv/geometry/groups/o3.py:uniform_grid"]}
{"id": "C36", "title": "S2 coordinate round trips", "statement": "s2.spherical_to_euclid always returns a unit vector; euclid_to_spherical followed by spherical_to_euclid is the identity on every unit vector (poles included); spherical_to_euclid followed by euclid_to_spherical is the identity for beta in (0,pi), gamma in (-pi,pi].", "quantifier": "all angles, all unit vectors", "why_tests_cant": "A test samples finitely many floats of an uncountable domain.", "anchors": ["gconv/geometry/groups/s2.py:spherical_to_euclid,euclid_to_spherical"]}
{"id": "C37", "title": "S2 grids embedded in SO(3)", "statement": "s2.spherical_to_euler(g) is the Euler triple (0,beta,gamma) whose rotation maps the z axis to spherical_to_euclid(g); with set_alpha_as_neg_gamma the alpha angle is -gamma; unknown parameterizations are rejected.", "quantifier": "all spherical grids, all parameterization strings", "why_tests_cant": "A test samples finitely many floats of an uncountable domain.", "anchors": ["gconv/geometry/groups/s2.py:spherical_to_euler,spherical_to_euler_neg_gamma,uniform_grid_s2"]}
{"id": "C38", "title": "Gaussian RBF", "statement": "interpolation.RBF_gauss(x,w) is 1 at 0, even, strictly decreasing in |x|, in (0,1], and equals one half at x=w up to 1e-8 (w the half width at half height), for every non-zero width.", "quantifier": "all x, all w != 0", "why_tests_cant": "A test samples finitely many floats of an uncountable domain.", "anchors": ["gconv/geometry/interpolation.py:RBF_gauss"]}
{"id": "C39", "title": "RBF interpolation reproduces the signal", "statement": "When the RBF matrix of the signal grid is invertible, interpolate_RBF evaluated at a grid node returns exactly that node's signal; the result is linear in the signal and is the Gaussian expansion solving the interpolation conditions; when the matrix is singular the call raises. In mode 'rbf' so2/so3/o2/o3.grid_sample at a query equal to an element of the signal grid return that element's signal.", "quantifier": "all grids, signals, distance functions, radial functions", "why_tests_cant": "A test samples finitely many floats of an uncountable domain.", "anchors": ["gconv/geometry/interpolation.py:interpolate_RBF", "gconv/geometry/groups/so2.py:grid_sample", "gconv/geometry/groups/so3.py:grid_sample", "gconv/geometry/groups/o2.py:grid_sample", "gconv/geometry/groups/o3.py:grid_sample"]}
{"id": "C40", "title": "Nearest neighbour interpolation picks a nearest node", "statement": "interpolate_NN returns for each query the signal row of a grid node at minimal distance; if one node is strictly closest it is that node's signal; every output row is a row of the signal. In mode 'nearest' so2/so3.grid_sample do this with the geodesic distance, o2/o3.grid_sample with the geodesic distance among the grid elements of the query's coset.", "quantifier": "all grids, queries, distance functions", "why_tests_cant": "A test samples finitely many floats of an uncountable domain.", "anchors": ["gconv/geometry/interpolation.py:interpolate_NN", "gconv/geometry/groups/so2.py:grid_sample", "gconv/geometry/groups/so3.py:grid_sample", "gconv/geometry/groups/o2.py:grid_sample", "gconv/geometry/groups/o3.py:grid_sample"]}
{"id": "C41", "title": "Group sampling is left-invariant", "statement": "For SO(2), O(2), SO(3) and O(3): applying one and the same group element on the left of both the query grid and the signal grid does not change what grid_sample returns (both modes; O(2)/O(3) for rotations).", "quantifier": "all group elements, grids, signals, modes, widths", "why_tests_cant": "A test samples finitely many floats of an uncountable domain.", "anchors": ["gconv/geometry/groups/so2.py:grid_sample", "gconv/geometry/groups/so3.py:grid_sample", "gconv/geometry/groups/o2.py:grid_sample", "gconv/geometry/groups/o3.py:grid_sample"]}
{"id": "C42", "title": "Unknown sampling modes are rejected", "statement": "so2/so3.grid_sample accept exactly the modes 'rbf' and 'nearest' and raise ValueError for every other string; so do o2/o3.grid_sample when the signal grid is not empty.", "quantifier": "all strings", "why_tests_cant": "All strings.", "anchors": ["gconv/geometry/groups/so2.py:grid_sample", "gconv/geometry/groups/so3.py:grid_sample", "gconv/geometry/groups/o2.py:grid_sample", "gconv/geometry/groups/o3.py:grid_sample"]}
{"id": "C43", "title": "Barycentric interpolation is a convex combination", "statement": "interpolate_BCC returns, for every query, a combination of three signal rows with non-negative weights summing to 1 (hence inside their convex hull), and exactly the nearest row's signal when that distance is at most eps, provided some coefficient returned by least squares is positive.", "quantifier": "all grids, queries, signals and least-squares outputs", "why_tests_cant": "A test samples finitely many floats of an uncountable domain.", "anchors": ["gconv/geometry/interpolation.py:interpolate_BCC"]}
{"id": "C44", "title": "Repulsion bookkeeping", "statement": "repulsion.repulse performs exactly `steps` gradient steps with noise amplitude alpha*(steps-epoch)/steps, strictly decreasing and in (0,alpha]; with in_place=True the caller's grid becomes the returned grid, with in_place=False the caller's grid keeps its values; the number of points never changes.", "quantifier": "all step counts, gradients, noise draws", "why_tests_cant": "All gradient/noise sequences.", "anchors": ["gconv/geometry/repulsion.py:repulse"]}
{"id": "C45", "title": "Coulomb energy", "statement": "repulsion.columb_energy(d,k) is positive and strictly decreasing on d>0 for every k>=1, so moving a pair apart lowers its energy.", "quantifier": "all d>0, k>=1", "why_tests_cant": "A test samples finitely many floats of an uncountable domain.", "anchors": ["gconv/geometry/repulsion.py:columb_energy"]}
{"id": "C46", "title": "Spatial reference grids", "statement": "create_grid_R2(s)[i,j] = (x_i,x_j) and create_grid_R3(s)[i,j,k] = (x_k,x_j,x_i) with x_i = -1+2i/(s-1) (s>=2): all coordinates lie in [-1,1], distinct cells have distinct coordinates, and reversing an axis negates the coordinate.", "quantifier": "all sizes and indices", "why_tests_cant": "All sizes.", "anchors": ["gconv/gnn/functional/grid.py:create_grid_R2,create_grid_R3"]}
{"id": "C47", "title": "Spherical mask is a radial, symmetric 0/1 mask", "statement": "create_spherical_mask_R2/R3(s) is 1 exactly at cells whose reference coordinate has norm < 1.1 and 0 elsewhere; it is invariant under every axis permutation and reversal; for odd s>=3 it keeps the centre and the axis end points and drops the corners.", "quantifier": "all sizes, indices, lattice symmetries", "why_tests_cant": "All sizes.", "anchors": ["gconv/gnn/functional/mask.py"]}
{"id": "C48", "title": "A masked kernel has support", "statement": "For every kernel_size the mask keeps at least one kernel cell (so a masked layer can have non-zero output).", "quantifier": "all kernel sizes", "why_tests_cant": "Tests use sizes 3 and 5.", "anchors": ["gconv/gnn/functional/mask.py", "gconv/gnn/kernels/kernel_sen/kernel_se2.py"]}
{"id": "C49", "title": "Identity group element leaves the kernel unchanged", "statement": "Sampling the spatial weights with the identity group element returns the stored weights (modulo mask).", "quantifier": "all kernel sizes and weights", "why_tests_cant": "Small sizes happen to work.", "anchors": ["gconv/gnn/kernels/kernel.py:GLiftingKernel.forward", "gconv/gnn/functional/grid.py"]}
{"id": "C50", "title": "Lifting kernel formula", "statement": "GLiftingKernel.forward(H) has shape (out_channels, |H|, in_channels/groups, *kernel_size) and entry (co,h,ci,x) is mask(x) * [weight(co,ci) sampled at H[h]^-1 applied to grid_Rn](x) / det(H[h]).", "quantifier": "all channel counts, groups, grids H, kernel sizes, samplers", "why_tests_cant": "Reshape/repeat bookkeeping must be right for every size combination.", "anchors": ["gconv/gnn/kernels/kernel.py:GLiftingKernel.forward"]}
{"id": "C51", "title": "Group kernel formula", "statement": "GKernel.forward(in_H,out_H) has shape (out_channels,|out_H|,in_channels/groups,|in_H|,*kernel_size) and entry (co,o,ci,i,x) is mask(x) * [group-sampled weight channel at out_H[o]^-1 in_H[i], spatially sampled at out_H[o]^-1 grid_Rn](x) / det(out_H[o]).", "quantifier": "all sizes incl. |in_H| != |out_H|", "why_tests_cant": "Reshape bookkeeping for all size combinations.", "anchors": ["gconv/gnn/kernels/kernel.py:GKernel.forward"]}
{"id": "C52", "title": "Separable and subgroup kernels pair the right group elements", "statement": "GSeparableKernel.forward / GSubgroupKernel.forward return group weights whose entry (co,o,ci,i) is the weight sampled at out_H[o]^-1 in_H[i], with shape (out_channels,|out_H|,in_channels/groups,|in_H|,1,..), for all grid sizes.", "quantifier": "all |in_H|, |out_H|", "why_tests_cant": "Tests use equal grids, where the bug is invisible.", "anchors": ["gconv/gnn/kernels/kernel.py:GSeparableKernel.forward,GSubgroupKernel.forward"]}
{"id": "C53", "title": "Every group weight parameter is used exactly once", "statement": "The group-channel reshape in GKernel/GSeparableKernel/GSubgroupKernel maps (co,ci) to parameter positions bijectively, so no parameter is shared or dropped (although entry (co,ci) does not read parameter [.,co,ci] in general).", "quantifier": "all out_channels, in_channels/groups", "why_tests_cant": "All sizes.", "anchors": ["gconv/gnn/kernels/kernel.py:GKernel.forward,GSeparableKernel.forward,GSubgroupKernel.forward"]}
{"id": "C54", "title": "mask=False disables the mask", "statement": "Constructing any premade kernel with mask=False yields an unmasked kernel, with mask=True a masked one.", "quantifier": "all premade kernels and sizes", "why_tests_cant": "API contract across twelve classes.", "anchors": ["gconv/gnn/kernels/kernel_sen/kernel_se2.py", "gconv/gnn/kernels/kernel_sen/kernel_se3.py", "gconv/gnn/kernels/kernel_en/kernel_e2.py", "gconv/gnn/kernels/kernel_en/kernel_e3.py"]}
{"id": "C55", "title": "Default sampling width reflects grid density", "statement": "With width 0.0 the premade kernels use 0.8 times the mean nearest-neighbour distance of the (rotation/reflection) reference grid.", "quantifier": "all reference grids", "why_tests_cant": "All grids.", "anchors": ["gconv/gnn/kernels/kernel_sen/kernel_se3.py", "gconv/gnn/kernels/kernel_en/kernel_e3.py", "gconv/gnn/kernels/kernel_sen/kernel_se2.py"]}
{"id": "C56", "title": "Group weights depend only on relative group elements", "statement": "Multiplying in_H and out_H on the left by the same group element leaves the sampled group weights of the SE2/SE3/E2/E3 kernels unchanged.", "quantifier": "all group elements, grids, weights", "why_tests_cant": "A test samples finitely many floats of an uncountable domain.", "anchors": ["gconv/gnn/kernels/kernel.py", "gconv/gnn/kernels/kernel_sen", "gconv/gnn/kernels/kernel_en"]}
{"id": "C57", "title": "Spatial weights rotate with lattice symmetries", "statement": "For every lattice symmetry g (signed permutation matrix representable in the group), the spatial kernel for g*h is the kernel for h with its cells moved by g (times det(g) for E2/E3).", "quantifier": "all lattice symmetries, kernel sizes, weights, grids H, samplers", "why_tests_cant": "All symmetries, sizes, weights.", "anchors": ["gconv/gnn/kernels/kernel.py", "gconv/gnn/functional/grid.py", "gconv/gnn/functional/mask.py"]}
{"id": "C58", "title": "Constructor validation", "statement": "GroupConvNd accepts a configuration exactly when: a tuple group_kernel_size has no negative entry and positive sum, groups>0 divides in_channels and out_channels, a padding string is 'same' or 'valid' with 'same' requiring unit strides, padding_mode is one of the four known modes and conv_mode is '2d' or '3d'; otherwise it raises ValueError.", "quantifier": "all configurations with strides and dilations given as tuples (as the 2d and 3d classes pass them)", "why_tests_cant": "Infinite configuration space.", "anchors": ["gconv/gnn/modules/gconv.py:GroupConvNd.__init__"]}
{"id": "C59", "title": "'same' padding keeps the spatial size", "statement": "With padding='same' and stride 1 the stored padding pairs give, for every kernel size and dilation, total padding dilation*(k-1) per axis in the (reversed) order F.pad expects, left=total//2, so lifting and full group convolutions preserve the spatial size in every padding mode.", "quantifier": "all kernel sizes, dilations, spatial sizes", "why_tests_cant": "All sizes.", "anchors": ["gconv/gnn/modules/gconv.py:GroupConvNd.__init__,_conv2d_forward,_conv3d_forward"]}
{"id": "C60", "title": "Lifting convolution formula", "statement": "GLiftingConv forward returns shape (N,out_channels,|H|,*out) and value sum over input channels of the channel group and kernel cells of padded input times the lifting kernel entry (co,h,ci,.) plus bias[co], together with H itself.", "quantifier": "all inputs, sizes, strides, paddings, dilations, groups", "why_tests_cant": "All sizes.", "anchors": ["gconv/gnn/modules/gconv.py:GLiftingConvNd.forward"]}
{"id": "C61", "title": "Group convolution formula", "statement": "GConv forward returns (N,out_channels,|out_H|,*out) with value the sum over the input channels of the channel group, all input group elements and kernel cells of padded input times kernel entry (co,o,ci,i,.), plus bias[co].", "quantifier": "all inputs, sizes, groups", "why_tests_cant": "All sizes.", "anchors": ["gconv/gnn/modules/gconv.py:GConvNd.forward"]}
{"id": "C62", "title": "Separable convolution equals group mixing followed by a depthwise spatial convolution of the same geometry", "statement": "GSeparableConv forward has the same output spatial size as GConv with the same stride/padding/dilation and equals a pointwise group convolution followed by one spatial convolution.", "quantifier": "all strides, paddings, dilations, padding modes", "why_tests_cant": "Tests only use padding='same' with zeros or no padding, stride 1.", "anchors": ["gconv/gnn/modules/gconv.py:GSeparableConvNd.forward"]}
{"id": "C63", "title": "Translation equivariance", "statement": "Shifting the input of a lifting or group convolution (stride 1) by an integer vector shifts the output by the same vector wherever both windows stay inside the signal; exactly everywhere for circular padding 'same'.", "quantifier": "all inputs, shifts, kernels", "why_tests_cant": "All shifts and inputs.", "anchors": ["gconv/gnn/modules/gconv.py"]}
{"id": "C64", "title": "Rotation equivariance of the lifting convolution", "statement": "For every lattice symmetry g, rotating the input image by g and multiplying H by g on the left rotates the output of the SE2/SE3 lifting convolution by g, for every group grid H, weight, sampler, symmetric padding, dilation and kernel size of at least 2.", "quantifier": "all inputs, weights, grids H, lattice symmetries", "why_tests_cant": "All of these.", "anchors": ["gconv/gnn/modules/gconv.py:GLiftingConvNd.forward", "gconv/gnn/modules/gconv_sen/gconv_se2.py", "gconv/gnn/modules/gconv_sen/gconv_se3.py"]}
{"id": "C65", "title": "Rotation equivariance of group and separable convolutions", "statement": "For every lattice symmetry g, rotating the spatial part of the input by g and multiplying in_H and out_H by g on the left rotates the output of SE2/SE3 GConv (and of the separable convolution when |in_H|=|out_H|), for kernel sizes of at least 2.", "quantifier": "all inputs, weights, grids, lattice symmetries", "why_tests_cant": "All of these.", "anchors": ["gconv/gnn/modules/gconv.py:GConvNd.forward,GSeparableConvNd.forward"]}
{"id": "C66", "title": "E(n) convolutions are equivariant to reflections", "statement": "The E3/E2 convolutions satisfy the same equivariance for elements of coefficient -1.", "quantifier": "all inputs, weights, grids", "why_tests_cant": "Signs cancel in many tests.", "anchors": ["gconv/gnn/kernels/kernel.py", "gconv/gnn/modules/gconv_en/gconv_e3.py"]}
{"id": "C67", "title": "Pooling over group and space yields invariants", "statement": "GAvgGlobalPool (and the values of GMaxGlobalPool) are unchanged when group and spatial positions are permuted; hence lifting convolution + GAvgGlobalPool on a group grid closed under a lattice symmetry g is invariant under rotating the input by g.", "quantifier": "all inputs, permutations, closed grids", "why_tests_cant": "All of these.", "anchors": ["gconv/gnn/modules/pooling.py:GAvgGlobalPool,GMaxGlobalPool,GAvgGroupPool,GMaxGroupPool"]}
{"id": "C68", "title": "Group pools return a tensor", "statement": "GAvgGroupPool/GAvgGlobalPool/GMaxGroupPool/GMaxGlobalPool return a single tensor with the group axis (and spatial axes) reduced.", "quantifier": "all inputs", "why_tests_cant": "API contract.", "anchors": ["gconv/gnn/modules/pooling.py"]}
{"id": "C69", "title": "Spatial pools keep batch, channel and group axes", "statement": "The spatial pooling modules return (pooled, H) with pooled of shape (N,C,|H|,*pooled_spatial).", "quantifier": "all inputs and pool sizes", "why_tests_cant": "Shape-dependent.", "anchors": ["gconv/gnn/modules/pooling.py:GMaxSpatialPool2d"]}
{"id": "C70", "title": "Normalisation layers treat the group axis as spatial", "statement": "GBatchNorm/GInstanceNorm return a tensor of the input's shape and H unchanged; statistics pool over the group axis, so permuting group positions of the input permutes the output in the same way.", "quantifier": "all inputs, permutations", "why_tests_cant": "All inputs.", "anchors": ["gconv/gnn/modules/normalization.py"]}
{"id": "C71", "title": "Activations act pointwise and pass H through", "statement": "GReLU/GGELU/GLeakyReLU return the activation applied to every entry and exactly the H they were given, hence commute with every permutation of positions; GWrap does the same for any module.", "quantifier": "all inputs", "why_tests_cant": "All inputs.", "anchors": ["gconv/gnn/modules/activations.py", "gconv/gnn/modules/wrappers.py"]}
{"id": "C72", "title": "Default grids and output grid permutation", "statement": "Lifting layers use the kernel grid when H is None; SE2/SE3 group layers use in_H as out_H, E2/E3 use the kernel grid; with permute_output_grid=False the returned grid is the chosen grid unchanged, with True it is the chosen grid with every element multiplied on the left by one random group element.", "quantifier": "all inputs, grids, random draws", "why_tests_cant": "All draws.", "anchors": ["gconv/gnn/modules/gconv_sen/gconv_se2.py:forward", "gconv/gnn/modules/gconv_en/gconv_e2.py:forward"]}
{"id": "C73", "title": "Convolutions are linear in the input", "statement": "Without bias, lifting/group/separable convolution outputs are linear in the input for fixed weights and grids; bias adds bias[co] at every position.", "quantifier": "all inputs and scalars", "why_tests_cant": "All inputs.", "anchors": ["gconv/gnn/modules/gconv.py"]}
{"id": "C74", "title": "The order of the group grid does not matter", "statement": "A lifting or group convolution's output at a grid position depends only on the group element at that position: listing the output grid in another order, or repeating elements, only reindexes the output; listing the input grid in another order together with the group axis of the input changes nothing.", "quantifier": "all inputs, weights, grids, reindexings", "why_tests_cant": "All orders of all grids.", "anchors": ["gconv/gnn/modules/gconv.py:GroupConvNd,LiftingConvNd", "gconv/gnn/kernels/kernel.py:forward_interpolate"]}
{"id": "C75", "title": "Whole networks are equivariant, pooled outputs invariant", "statement": "A network of any depth made of a lifting convolution, then any sequence of group convolutions, activations and normalisation layers, maps an input turned by a lattice rotation in the grid to the turned feature map, with group positions permuted by left multiplication; global average pooling at the end is unchanged.", "quantifier": "all depths, layer sequences, weights, inputs, grids closed under the rotation", "why_tests_cant": "Any depth and any order of layers.", "anchors": ["gconv/gnn/modules/gconv_sen/gconv_se2.py", "gconv/gnn/modules/gconv_sen/gconv_se3.py", "gconv/gnn/modules/activations.py", "gconv/gnn/modules/normalization.py", "gconv/gnn/modules/pooling.py"]}
{"id": "C76", "title": "Running statistics after any history of batches", "statement": "GBatchNorm/GInstanceNorm with tracked statistics hold, after any sequence of training batches, the cumulative average (momentum None) or the exponentially weighted average (momentum m) of the per-batch statistics and the number of batches; evaluation mode changes nothing.", "quantifier": "all histories of batches", "why_tests_cant": "Histories are unbounded.", "anchors": ["gconv/gnn/modules/normalization.py:GBatchNorm2d,GInstanceNorm2d"]}
{"id": "C77", "title": "Layer normalisation over channel, group and space", "statement": "GLayerNorm normalises every sample by the mean and biased variance over exactly its normalised axes, applies the elementwise affine, keeps the shape, passes H through and rejects inputs whose trailing axes differ from the normalised shape.", "quantifier": "all inputs and shapes", "why_tests_cant": "All inputs.", "anchors": ["gconv/gnn/modules/normalization.py:GLayerNorm"]}
{"id": "C78", "title": "Random grids are uniformly distributed", "statement": "The rows of so2/o2/o3 random_grid, so3.random_quat, so3.random_matrix and s2.random_s2 are independent and Haar-uniform: multiplying each row by any group element leaves the joint law unchanged, so2 angles hit an arc with probability proportional to its length; the random move that permute_output_grid applies is uniform from the left and from the right; draws for which a division by zero would occur have probability zero.", "quantifier": "all sizes, all group elements, all events", "why_tests_cant": "A law of a random variable is not observable from finitely many draws.", "anchors": ["gconv/geometry/groups/so2.py:random_grid", "gconv/geometry/groups/o2.py:random_grid", "gconv/geometry/groups/so3.py:random_quat,random_matrix", "gconv/geometry/groups/o3.py:random_grid", "gconv/geometry/groups/s2.py:random_s2", "gconv/gnn/modules/gconv_sen/gconv_se2.py:forward", "gconv/gnn/modules/gconv_sen/gconv_se3.py:forward"]}
{"id": "C79", "title": "Freshly constructed layers have centred independent parameters", "statement": "After constructing a kernel and a convolution of it all parameters are independent random numbers of mean 0 and variance 1/(3n), whatever the kernel's own earlier initialisation and the fresh memory held: lifting weights normal, the other weights and the bias uniform on [-1/sqrt n, 1/sqrt n]; n is the product of all axes of the weight but the first (for group kernels the first axis is the group axis, so output channels count as inputs).", "quantifier": "all channel counts, groups, kernel sizes, events", "why_tests_cant": "A law is not observable from finitely many draws.", "anchors": ["gconv/gnn/kernels/kernel.py:reset_parameters", "gconv/gnn/modules/gconv.py:reset_parameters"]}
{"id": "C80", "title": "Outputs are linear in the parameters", "statement": "For a fixed input and fixed grids the output of lifting, group and subgroup convolutions is linear in weight and bias together; of separable convolutions in (group weight, bias) for a fixed spatial weight and in (spatial weight, bias) for a fixed group weight. Whether a call raises does not depend on the values of parameters or input, only on shapes and configuration; the same holds for linearity in the input.", "quantifier": "all kernels with linear samplers (all premade ones), configurations (also those that raise), inputs, grids, parameters, scalars", "why_tests_cant": "All parameter values and all configurations.", "anchors": ["gconv/gnn/kernels/kernel.py", "gconv/gnn/modules/gconv.py", "gconv/gnn/functional/functional.py"]}
{"id": "C81", "title": "Samples of a batch are processed independently", "statement": "Calling a convolution, activation, instance or layer normalisation, batch normalisation in evaluation mode, a pooling module or a whole network of such layers on a batch put together from samples of another batch (subset, repetition, reordering, single sample) raises exactly when the call on the other batch raises, and otherwise returns the corresponding samples of its result.", "quantifier": "all kernels, configurations, parameters, inputs, non-empty batches, selections of samples, depths", "why_tests_cant": "All batches and all networks.", "anchors": ["gconv/gnn/modules/gconv.py", "gconv/gnn/modules/normalization.py", "gconv/gnn/modules/activations.py", "gconv/gnn/modules/pooling.py"]}
{"id": "C82", "title": "Receptive field of the convolutions", "statement": "An output value at a position depends only on the same sample, on the input channels of its channel group and on the input cells under the kernel window placed there (start at o*stride - padding, extent of the dilated kernel, steps of the dilation); changing one input value changes it by that change times the sampled kernel values lying over it.", "quantifier": "all kernels, weights, inputs, grids, strides, paddings, dilations, padding modes, channel groups, positions", "why_tests_cant": "All pairs of inputs agreeing on the window.", "anchors": ["gconv/gnn/modules/gconv.py:LiftingConvNd,GroupConvNd,GSubgroupConvNd,GSeparableConvNd"]}
{"id": "C83", "title": "Geodesic distances are angles and satisfy the triangle inequality", "statement": "geodesic_distance_s2 of two unit vectors is the angle between them cut off at arccos(1-eps) from 0 and pi; it is symmetric and unchanged when both points are moved by one orthogonal matrix; the SO(2), SO(3) and S2 distances satisfy the triangle inequality although they are cut off.", "quantifier": "all unit vectors, angles, unit quaternions and 0 <= eps <= 1", "why_tests_cant": "A test samples finitely many floats of an uncountable domain.", "anchors": ["gconv/geometry/groups/s2.py:geodesic_distance_s2", "gconv/geometry/groups/so2.py:geodesic_distance", "gconv/geometry/groups/so3.py:geodesic_distance"]}
{"id": "C84", "title": "The energy that repulsion minimises", "statement": "The quantity repulse differentiates is the mean, over the ordered pairs of different rows, of energy(distance/constant), whenever no row is closer to another row than to itself, which holds for the grids of uniform_grid_s2 and so3.uniform_grid; it does not depend on the order of the rows, is unchanged when all rows move by one isometry, and moving all pairs further apart lowers it.", "quantifier": "all grids, transforms, metrics, energies", "why_tests_cant": "A test samples finitely many floats of an uncountable domain.", "anchors": ["gconv/geometry/repulsion.py:repulse", "gconv/geometry/groups/s2.py:uniform_grid_s2", "gconv/geometry/groups/so3.py:uniform_grid"]}
{"id": "C85", "title": "Layers do not share state", "statement": "Every layer owns its tensors: load_state_dict on one layer sets exactly its own tensors to the loaded values and changes no other layer, no tensor held by the user and no later result of so3.uniform_grid; nothing but load_state_dict on a layer (or an in-place write to its grid after reading it off the layer) changes its parameters or its grid; without such writes no existing tensor ever changes.", "quantifier": "all histories of constructing layers, requesting and caching grids, loading states, writing in place", "why_tests_cant": "Histories are unbounded and sharing shows only in particular interleavings.", "anchors": ["gconv/geometry/groups/so3.py:uniform_grid", "gconv/geometry/groups/_grid_cache.py:load_grid", "gconv/gnn/kernels/kernel.py:GKernel", "gconv/gnn/kernels/kernel_sen/kernel_se3.py", "gconv/gnn/kernels/kernel_sen/kernel_so3.py"]}
{"id": "C86", "title": "Saving and restoring a kernel", "statement": "Loading the state of a kernel into a kernel constructed with the same arguments (whatever reference grid it drew or was given) gives a kernel that behaves exactly like the saved one; a state with a grid of another shape is rejected.", "quantifier": "all arguments, reference grids, random draws", "why_tests_cant": "The second construction may draw any random grid.", "anchors": ["gconv/gnn/kernels/kernel.py:GroupKernel", "gconv/gnn/kernels/kernel_sen/kernel_se2.py", "gconv/gnn/kernels/kernel_sen/kernel_se3.py", "gconv/gnn/kernels/kernel_en/kernel_e2.py", "gconv/gnn/kernels/kernel_en/kernel_e3.py"]}
{"id": "C87", "title": "Kernels with default settings can be evaluated", "statement": "Group and separable kernels of SE(2), SE(3), E(2) and E(3) constructed with the default reference grid, sampling mode (or 'nearest') and width can be evaluated: forward returns tensors of the documented shapes for all parameters and all grids of group elements; in particular the RBF system that sampling solves is never singular.", "quantifier": "all group kernel sizes, kernel sizes, channels, groups, weights, input and output grids", "why_tests_cant": "The RBF system may be singular for one particular size; all sizes and all grids.", "anchors": ["gconv/gnn/kernels/kernel_sen/kernel_se2.py", "gconv/gnn/kernels/kernel_sen/kernel_se3.py", "gconv/gnn/kernels/kernel_en/kernel_e2.py", "gconv/gnn/kernels/kernel_en/kernel_e3.py", "gconv/geometry/groups/so3.py:grid_sample,nearest_neighbour_distance", "gconv/geometry/interpolation.py:interpolate_rbf", "gconv/geometry/groups/_grid_cache.py"]}
{"id": "C88", "title": "Stored filters are recovered at the reference elements", "statement": "Wherever out_H[o]^-1 * in_H[i] is reference element k, slice (o,i) of a group kernel is stored filter k moved to out_H[o] (resampled at out_H[o]^-1 x, masked, divided by the determinant), and entry (o,i) of the group part of a separable kernel is stored weight k: the sampler interpolates, it does not smooth.", "quantifier": "all kernels of SE(2), SE(3), E(2), E(3), weights, grids, sampling modes rbf and nearest", "why_tests_cant": "All weights and all grids; the interpolation system may be singular for particular grids.", "anchors": ["gconv/gnn/kernels/kernel.py", "gconv/gnn/kernels/kernel_sen/kernel_se2.py", "gconv/gnn/kernels/kernel_sen/kernel_se3.py", "gconv/gnn/kernels/kernel_en/kernel_e2.py", "gconv/gnn/kernels/kernel_en/kernel_e3.py", "gconv/geometry/interpolation.py"]}
{"id": "C89", "title": "A given reference grid overrides group_kernel_size", "statement": "A kernel constructed with grid_H behaves as one whose group_kernel_size is the number of elements of grid_H, whatever group_kernel_size was passed (docstring: 'If provided, will overwrite given group_kernel_size').", "quantifier": "all arguments, grids, sizes", "why_tests_cant": "All pairs of grid and size.", "anchors": ["gconv/gnn/kernels/kernel.py", "gconv/gnn/kernels/kernel_sen/kernel_se2.py", "gconv/gnn/kernels/kernel_sen/kernel_se3.py", "gconv/gnn/kernels/kernel_en/kernel_e2.py", "gconv/gnn/kernels/kernel_en/kernel_e3.py"]}
{"id": "C90", "title": "Results depend on group elements, not on the numbers representing them", "statement": "Replacing the angles of the input and output grids by angles that represent the same group elements (full turns added) changes neither kernels nor layer outputs nor errors; more generally two elements acting identically on the plane give identical kernel slices.", "quantifier": "all kernels of SE(2) and E(2), parameters, inputs, grids, representatives", "why_tests_cant": "All representatives.", "anchors": ["gconv/gnn/kernels/kernel.py", "gconv/gnn/kernels/kernel_sen/kernel_se2.py", "gconv/gnn/kernels/kernel_sen/kernel_se3.py", "gconv/gnn/kernels/kernel_en/kernel_e2.py", "gconv/gnn/kernels/kernel_en/kernel_e3.py", "gconv/geometry/groups/so2.py", "gconv/geometry/groups/o2.py"]}
{"id": "C91", "title": "Resampling never leaves the range of the stored filters", "statement": "Lifting kernels, and group kernels with nearest-neighbour sampling on the group, are never larger in absolute value than the stored filters, at any group elements and with any spatial mode and padding; with border or reflection padding every cell kept by the mask lies between the minimum and the maximum of the filter (up to the sign of the element), so constant filters are reproduced exactly; cells outside the mask are zero; layer outputs are bounded by (number of channels, group elements and kernel cells entering) * max|input| * max|weight| + |bias|.", "quantifier": "all kernels of SE(2), SE(3), E(2), E(3), weights, grids, sizes, inputs", "why_tests_cant": "A test samples finitely many floats of an uncountable domain.", "anchors": ["gconv/gnn/kernels/kernel.py", "gconv/gnn/kernels/kernel_sen/kernel_se2.py", "gconv/gnn/kernels/kernel_sen/kernel_se3.py", "gconv/gnn/kernels/kernel_en/kernel_e2.py", "gconv/gnn/kernels/kernel_en/kernel_e3.py", "gconv/geometry/interpolation.py", "gconv/gnn/modules/gconv.py"]}
{"id": "C92", "title": "Kernels and layers depend continuously on group elements, parameters and input", "statement": "With bilinear spatial sampling and (for group and separable kernels) rbf sampling on the group, kernels move continuously when weights and group elements move continuously, through every angle including full turns, half-turn rotations and the grid boundaries; hence layer outputs are continuous in input, weights, bias and grids jointly. There is no jump at cell boundaries, at the wrap-around of angles or at the ambiguous quaternion sign.", "quantifier": "all kernels of SE(2), SE(3), E(2), E(3), paddings zeros/border/reflection, continuous families of parameters, grids and inputs over any topological space", "why_tests_cant": "Continuity is a statement about all nearby inputs.", "anchors": ["gconv/gnn/kernels/kernel.py", "gconv/gnn/kernels/kernel_sen/kernel_se2.py", "gconv/gnn/kernels/kernel_sen/kernel_se3.py", "gconv/gnn/kernels/kernel_en/kernel_e2.py", "gconv/gnn/kernels/kernel_en/kernel_e3.py", "gconv/geometry/interpolation.py", "gconv/gnn/modules/gconv.py"]}
{"id": "C93", "title": "With randomly moved grids, networks are equivariant and invariant in distribution, for every grid", "statement": "With permute_output_grid=True the group elements need not be closed under the rotation: for every lattice rotation (quarter turns of square-lattice images, the 24 rotations of volumes), the result of lifting convolution and any chain of activations, normalisations, group and separable convolutions on the turned image is distributed like the turned result, over the independent draws of all layers; with a global pooling at the end its distribution (and mean) is the same for the image and the turned image.", "quantifier": "all kernels of SE(2), SE(3), E(2), E(3), grids, parameters, images, depths, events", "why_tests_cant": "An equality of laws; all events and all grids.", "anchors": ["gconv/gnn/modules/gconv_sen/gconv_se2.py:forward", "gconv/gnn/modules/gconv_sen/gconv_se3.py:forward", "gconv/gnn/modules/gconv_en/gconv_e2.py:forward", "gconv/gnn/modules/gconv_en/gconv_e3.py:forward", "gconv/gnn/modules/pooling.py"]}
{"id": "C94", "title": "On the torus, networks commute with cyclic shifts", "statement": "With padding='same' and padding_mode='circular', rolling the image cyclically along any spatial axes by any amounts rolls the output of lifting convolution and any chain of group convolutions, activations, batch and instance normalisations (training or evaluation mode) by the same amounts, with the same group elements and the same errors; with a global pooling at the end the output does not change at all. (Separable convolutions pad twice, C62, and are excluded.)", "quantifier": "all kernel objects, parameters, grids, image sizes, shifts, depths", "why_tests_cant": "All shifts, sizes and depths.", "anchors": ["gconv/gnn/modules/gconv.py", "gconv/gnn/modules/normalization.py", "gconv/gnn/modules/activations.py", "gconv/gnn/modules/pooling.py"]}
{"id": "C95", "title": "Without padding, networks commute with cropping", "statement": "With padding 0 or 'valid' (any stride, dilation, padding_mode, kernel, grids), whenever a chain of convolutions, activations and evaluation-mode normalisations accepts a crop of the image it accepts the image, and its features on the crop are exactly its features on the image from position u on, where the crop starts at u times the product of the strides; so features do not depend on anything outside the crop. A separable convolution counts with the square of its stride, because both of its stages step by it (C62).", "quantifier": "all kernel objects, parameters, grids, image sizes, crops, strides, dilations, depths", "why_tests_cant": "All crops, sizes, strides and depths.", "anchors": ["gconv/gnn/modules/gconv.py", "gconv/gnn/modules/normalization.py", "gconv/gnn/modules/activations.py"]}
{"id": "C96", "title": "Inputs that do not fit are rejected", "statement": "A layer called on an input whose number of channels, number of group elements (with respect to in_H), number of axes or spatial extents do not fit the layer raises an error instead of returning numbers; an input that fits is accepted.", "quantifier": "all kernel objects, parameters, grids, layer configurations and input shapes", "why_tests_cant": "All shapes; a test can only try some misfits.", "anchors": ["gconv/gnn/modules/gconv.py"]}
{"id": "C97", "title": "On a grid that is a finite group, a group element acts by permuting the group axis", "statement": "With permute_output_grid=False and a grid of different elements that the lattice symmetry g maps to itself, the feature map a network of any depth returns for the turned input is, at the position of g h on the group axis, the turned feature map at the position of h; with the default grid of n rotations, turning by 2 pi j / n moves the group axis cyclically by j, and with the default O(2) grid of n rotations and n reflections each half is moved cyclically. The default SO(2) and O(2) grids, cyclic(n, axis), klein_group() and tetrahedral() are such grids.", "quantifier": "all networks, sizes, grids, parameters, inputs", "why_tests_cant": "All networks, inputs and elements.", "anchors": ["gconv/gnn/modules/gconv_sen/gconv_se2.py", "gconv/gnn/modules/gconv_sen/gconv_se3.py", "gconv/gnn/modules/gconv_en/gconv_e2.py", "gconv/gnn/modules/gconv_en/gconv_e3.py", "gconv/geometry/groups/so3.py:cyclic, klein_group, tetrahedral"]}
{"id": "C98", "title": "The printed description of a layer determines its configuration", "statement": "Every layer the public 2d and 3d constructors accept can be printed, and two layers with the same printed description have the same channels, kernel size, group kernel size, groups, stride, dilation, padding mode, presence of bias and dimension, and paddings that stand for the same amounts (all-zero paddings are not shown); the description of a kernel shows whether it is masked.", "quantifier": "all constructor arguments", "why_tests_cant": "All pairs of configurations.", "anchors": ["gconv/gnn/modules/gconv.py:extra_repr", "gconv/gnn/kernels/kernel.py:extra_repr"]}
{"id": "C99", "title": "The program in the README", "statement": "The program of README.md (GLiftingConvSE3, GSeparableConvSE3, GAvgGlobalPool with default arguments) runs for every batch size, every number of channels, every kernel size and every volume that leaves room for two kernels, whatever the parameters, the volume and the random draws; each feature map comes with its 4 group elements, and the result has shape (batch, channels, 1) and is the mean over group and space. For a volume turned by a rotation of the voxel grid the result has the same distribution; in distribution only: there are parameters and a volume whose features are all zero with positive probability and all positive with positive probability.", "quantifier": "all sizes, parameters, volumes and draws; all 24 rotations of the voxel grid", "why_tests_cant": "A run shows one volume, one set of parameters and one draw.", "anchors": ["README.md", "gconv/gnn/modules/gconv_sen/gconv_se3.py:GLiftingConvSE3", "gconv/gnn/modules/gconv_sen/gconv_se3.py:GSeparableConvSE3", "gconv/gnn/modules/pooling.py:GAvgGlobalPool"]}
{"id": "C100", "title": "Custom groups", "statement": "If the callables a user hands to the kernel classes are the operations of a group (elementwise inverse, product, an action on vectors, and, if given, a multiplicative determinant) and his samplers work pointwise, then the lifting, group and separable convolutions built from them are equivariant: moving the image by a lattice symmetry that an element g induces on the kernel grid, and the group elements by g, moves the output and divides it by det g.", "quantifier": "all groups, actions, determinants, samplers, kernels, parameters, layer geometries, images and grids of group elements", "why_tests_cant": "The groups are the user's; no test of the library sees them.", "anchors": ["README.md", "gconv_tutorial.ipynb", "gconv/gnn/kernels/kernel.py:GLiftingKernel", "gconv/gnn/kernels/kernel.py:GSeparableKernel", "gconv/gnn/kernels/kernel.py:GKernel", "gconv/gnn/modules/gconv.py"]}
{"id": "C101", "title": "The tutorial notebook", "statement": "The custom SE(2) convolutions of the tutorial: its group operations are those of the plane rotations; the program runs for all sizes and returns feature maps of the announced shapes and values; the layers are equivariant under quarter turns; grid_sample_so2 interpolates a signal on a uniform grid linearly between the two neighbours of the query, so it returns the stored value at a grid element and 1 for the constant signal 1.", "quantifier": "all sizes, parameters, images, angles, signals, and all choices of torch.topk among ties", "why_tests_cant": "All angles and sizes, all ties.", "anchors": ["gconv_tutorial.ipynb", "gconv/gnn/kernels/kernel.py:GLiftingKernel", "gconv/gnn/kernels/kernel.py:GSeparableKernel", "gconv/gnn/modules/gconv.py:GLiftingConv2d, GSeparableConv2d"]}
{"id": "C102", "title": "Results do not depend on the memory layout", "statement": "Two tensors with the same entries but different strides (row-major, transposed, rotated with torch.rot90, sliced, expanded, channels-last) give the same outputs, the same errors and the same running statistics in the convolution and normalisation layers.", "quantifier": "all strides and storage offsets of the input, all layouts of intermediate results, all layers, parameters and sizes", "why_tests_cant": "All strides and sizes; tests use new, contiguous tensors.", "anchors": ["gconv/gnn/modules/gconv.py:GLiftingConvNd.forward, GConvNd.forward, GSeparableConvNd.forward", "gconv/gnn/modules/normalization.py"]}
{"id": "C103", "title": "Small changes of the input lead to small changes of the output", "statement": "For every layer and every network (lifting, convolution, separable, activation, normalisation layers and global pooling) and every input shape there is a constant, such that two inputs of this shape that differ by at most eps everywhere give outputs on the same grid that differ by at most the constant times eps, or both raise the same error. The constants of the single layers are explicit: fan-in times the largest sampled kernel value for convolutions; 1, 2 and max(1, |slope|) for ReLU, GELU and leaky ReLU; 2 (1 + sqrt(n)) / sqrt(eps) times the largest scale for normalisations over n values; 1 for pooling. Normalisation with eps = 0 has no such constant.", "quantifier": "all layers, kernels, parameters, networks of any depth, shapes, inputs and perturbations", "why_tests_cant": "A bound over all pairs of inputs.", "anchors": ["gconv/gnn/modules/gconv.py", "gconv/gnn/modules/activations.py", "gconv/gnn/modules/normalization.py", "gconv/gnn/modules/pooling.py"]}
{"id": "C104", "title": "The shipped rotation grids are spread out", "statement": "For n = 2, ..., 24 different rotations of so3.uniform_grid(n, 'matrix') are at least 3.140, 2.640, 2.812, 2.429, 2.118, 2.030, 1.756, 1.904, 2.014, 1.894, 1.812, 1.735, 1.739, 1.539, 1.596, 1.640, 1.682, 1.527, 1.603, 1.638, 1.521, 1.515, 1.488 radians apart (never less than 85 degrees), and the distances to the nearest other rotation computed by nearest_neighbour_distance differ by at most 23 percent within one grid.", "quantifier": "all shipped grids, all pairs of rotations", "why_tests_cant": "Quantifies over all pairs of the shipped data, with exact real arithmetic in place of rounded arc cosines.", "anchors": ["gconv/geometry/groups/so3.py:uniform_grid, nearest_neighbour_distance, geodesic_distance", "gconv/geometry/groups/_grid_cache.py"]}
{"id": "C105", "title": "A separable layer is a full layer with product filters", "statement": "With strides 1 and no padding (or zero padding 'same'), and as many output as input elements, GSeparableConvSE2/E2/SE3/E3 compute what GConvSE2/E2/SE3/E3 with the same arguments compute when the full filters are the products weight_H[k, a, b] * weight[co, 0] of the group weights and the spatial filter of the output channel the entry (k, a, b) is read for: the same grid and the same feature maps on every input.", "quantifier": "all constructor arguments, parameters, inputs and grids of group elements, moved or not", "why_tests_cant": "An identity between two classes for all parameters and inputs.", "anchors": ["gconv/gnn/kernels/kernel.py:GSeparableKernel, GKernel", "gconv/gnn/modules/gconv.py:GSeparableConvNd, GConvNd", "gconv/gnn/modules/gconv_sen", "gconv/gnn/modules/gconv_en"]}
{"id": "C106", "title": "E(n) layers restricted to rotations are the SE(n) layers", "statement": "GLiftingConvE2/E3, GConvE2/E3 and GSeparableConvE2/E3 called with rotations (coefficient 1) return what GLiftingConvSE2/SE3, GConvSE2/SE3 and GSeparableConvSE2/SE3 with the same arguments return for these rotations, on every input, errors included: the same feature maps and the same rotations. Group and separable layers: when the reference grid of the E(n) kernel starts with the reference grid of the SE(n) kernel (as the default grids do), the stored weights at these positions are the same and the samplers have the same width; the weights stored for the reflections have no influence. E(2) with mask=True (SE(2) always masks); separable layers with as many output as input rotations.", "quantifier": "all constructor arguments, parameters, inputs, grids of rotations, drawn rotations", "why_tests_cant": "An identity between classes for all parameters and inputs.", "anchors": ["gconv/gnn/modules/gconv_en", "gconv/gnn/modules/gconv_sen", "gconv/gnn/kernels/kernel_en", "gconv/gnn/kernels/kernel_sen", "gconv/geometry/groups/o2.py:grid_sample, inverse, left_apply_angle", "gconv/geometry/groups/o3.py:grid_sample, inverse, left_apply_O3"]}
{"id": "C107", "title": "Premade layers built with their default grids can be used", "statement": "GLiftingConv, GConv and GSeparableConv for SE(2), SE(3), E(2), E(3), with default group grids and sizes (any for SE(2) and E(2) up to a million, 2 to 24 for SE(3) and per component of E(3), lifting layers over the plane without a bound), channel numbers divisible by groups and a kernel that fits into the padded input: the constructor returns a layer; calling it with any input, batch, grid of group elements, parameters and random draw returns feature maps of the announced shape together with the chosen grid, moved by the drawn element if permute_output_grid is set. In particular the calls of the repository's own tests succeed with the asserted shapes.", "quantifier": "all constructor arguments in these ranges, all parameters, inputs, batch sizes, grids, draws", "why_tests_cant": "Every size, channel number, image extent and draw; the tests use one of each.", "anchors": ["gconv/gnn/modules/gconv_sen", "gconv/gnn/modules/gconv_en", "gconv/gnn/kernels/kernel_sen", "gconv/gnn/kernels/kernel_en", "gconv/tests/test_gconv_se2.py", "gconv/tests/test_gconv_se3.py", "gconv/tests/test_gconv_e2.py", "gconv/tests/test_gconv_e3.py"]}
{"id": "C108", "title": "Channel groups do not mix", "statement": "With groups = g, the channels of block j of the output (the j-th of g consecutive blocks) depend on the channels of block j of the input only: two inputs of the same shape that agree on block j (and may differ anywhere else) give outputs on the same grid that agree on block j, or both raise the same error. Lifting, group, subgroup and separable layers of all four groups.", "quantifier": "all layers, kernels, samplers, parameters, strides, paddings, grids, batches and pairs of inputs", "why_tests_cant": "A statement about all pairs of inputs.", "anchors": ["gconv/gnn/modules/gconv.py:GLiftingConvNd.forward, GSeparableConvNd.forward, GConvNd.forward"]}
{"id": "C109", "title": "Contributions of the group elements add up", "statement": "The output of GConvSE2/SE3/E2/E3 is the sum over the input group elements h of the outputs of the same layer for the single part x[:, :, h:h+1] on the single element H[h:h+1] (called with the same output elements, without the bias), plus the bias: no input element changes what another one contributes.", "quantifier": "all constructor arguments, parameters, inputs and lists of group elements", "why_tests_cant": "An identity between the outputs of n + 1 calls for all inputs.", "anchors": ["gconv/gnn/modules/gconv.py:GConvNd.forward", "gconv/gnn/kernels/kernel.py:GKernel", "gconv/gnn/modules/gconv_sen", "gconv/gnn/modules/gconv_en"]}
{"id": "C110", "title": "Training on turned images", "statement": "A network (lifting convolution, activations, normalisations, group and separable convolutions, GAvgGlobalPool) trained on batches of images, and the same network trained on the same batches turned by lattice rotations (a different one for every batch) that permute the group elements used, go through the same parameters and the same running statistics, whatever the optimizer does with the pooled features as a function of the parameters: augmenting the data with these rotations has no effect on the training. The same holds for images rolled around the torus when the convolutions use padding='same' and padding_mode='circular', for every kernel object and configuration: the trainings then have the same outcome, also when they raise an exception.", "quantifier": "all networks of the chain, all histories of batches, all optimizers (with memory) that see the images through the pooled features only, all initial parameters", "why_tests_cant": "Quantifies over histories of training steps and over optimizers.", "anchors": ["gconv/gnn/modules/gconv.py", "gconv/gnn/modules/normalization.py", "gconv/gnn/modules/activations.py", "gconv/gnn/modules/pooling.py:GAvgGlobalPool", "README.md"]}
{"id": "C111", "title": "Residual and skip connections", "statement": "Networks with branches, in which feature maps of two branches are added (x + f(x)) or concatenated along the channels (torch.cat), nested in any way, built from activations, normalisation layers, group and separable convolutions that leave the group elements as they are: turning the image by a lattice rotation that permutes the (pairwise different) group elements turns the feature maps, and the globally pooled features do not change. In particular the group axes of two branches stay in the same order, so that adding them is meaningful.", "quantifier": "all networks of this kind, of any depth and nesting, all parameters, images and lattice rotations", "why_tests_cant": "Quantifies over network structures and all inputs.", "anchors": ["gconv/gnn/modules/gconv.py", "gconv/gnn/modules/gconv_sen", "gconv/gnn/modules/gconv_en", "gconv/gnn/modules/activations.py", "gconv/gnn/modules/normalization.py", "gconv/gnn/modules/pooling.py"]}
{"id": "C112", "title": "Convolutions over the subgroup act on the fibres only", "statement": "GConv3d with GSubgroupKernelSO3 (and GConvNd with any GSubgroupKernel), stride 1, no padding, as many output as input elements: the values of the output at a cell are a function of the values of the input at this cell, the same function for all cells, batches and images of any extents, and this function does not change if input and output elements are multiplied from the left by the same group element. So moving the cells in any way together with such a multiplication moves the output cells in the same way.", "quantifier": "all subgroup kernels, layer arguments, parameters, inputs of any extents, elements and rotations g", "why_tests_cant": "Quantifies over all inputs, motions of the cells and rotations; no test calls a layer with a subgroup kernel.", "anchors": ["gconv/gnn/modules/gconv.py:GConvNd.forward", "gconv/gnn/kernels/kernel.py:GSubgroupKernel", "gconv/gnn/kernels/kernel_sen/kernel_so3.py:GSubgroupKernelSO3"]}
{"id": "C113", "title": "Rotation equivariance needs a symmetric geometry", "statement": "If some axis does not treat its two ends alike (the stride does not reach the last cell of the padded image, as for stride 2 with an even number of steps left over, or an even kernel with padding='same' pads one cell more on the right) GLiftingConvSE2 is not equivariant under half turns: for every group grid, stride, dilation, padding mode and kernel size of at least 3 there are weights and an image for which the output for the turned image (and turned group elements) differs from the turned output, even where no padding is read. So the symmetric geometry assumed in C64 cannot be dropped. The same holds for GLiftingConvE2 (with and without mask) and the half turn (1, pi).", "quantifier": "all layer arguments, grids and image extents with such an axis and a cell whose window and mirrored window stay inside", "why_tests_cant": "Quantifies over all strides, dilations, paddings and extents.", "anchors": ["gconv/gnn/modules/gconv.py:GroupConvNd, GLiftingConvNd.forward", "gconv/gnn/modules/gconv_sen/gconv_se2.py:GLiftingConvSE2", "gconv/gnn/modules/gconv_en/gconv_e2.py:GLiftingConvE2"]}
{"id": "C114", "title": "Lattice elements use the exactly turned filter", "statement": "For kernel sizes 2 and 3, and for any size with nearest-neighbour interpolation, the output of GLiftingConvSE2/SE3/E2/E3 for a group element h that maps the kernel grid onto itself (a multiple of a quarter turn, a symmetry of the cube; in particular for the identity) is the ordinary convolution of the images with the filter stored in weight, masked and turned by h without any interpolation error (in the plane the stored filter is transposed; E(n): divided by the determinant coefficient).", "quantifier": "all constructor arguments in this range, parameters, images, grids and all of these elements", "why_tests_cant": "Quantifies over all weights, images, sizes and symmetries.", "anchors": ["gconv/gnn/modules/gconv.py:GLiftingConvNd.forward", "gconv/gnn/modules/gconv_sen", "gconv/gnn/modules/gconv_en", "gconv/gnn/kernels/kernel.py:GLiftingKernel", "gconv/gnn/functional/grid.py"]}
{"id": "C115", "title": "Convolutions in floating point arithmetic", "statement": "If every operation of a lifting or group convolution returns its exact result times 1 + d with |d| <= u (the standard model of rounding, u = 2^-24 in float32), the sums are formed in any order and grouping (BLAS, cuDNN, several threads), the stored filters are off by at most eta and bounded by W, the inputs bounded by B and the bias by beta, then every output is within ((1+u)^(n+1) - 1)(n B W + beta) + n B eta of the exact one, where n is the number of products of one output value (channels per group, input group elements, kernel cells). Hence GLiftingConvSE2/SE3 and GConvSE2/SE3 are equivariant under lattice rotations up to twice this bound, although the two evaluations add in different orders; GLiftingConvE2/E3 and GConvE2/E3 likewise, with the sign of C66 (the outputs without the bias are multiplied by the determinant of the group element).", "quantifier": "all constructor arguments, parameters, inputs, group elements, lattice rotations, rounding errors, orders and groupings of all sums", "why_tests_cant": "Quantifies over all rounding errors and all orders of evaluation.", "anchors": ["gconv/gnn/modules/gconv.py:GLiftingConvNd.forward, GConvNd.forward", "gconv/gnn/modules/gconv_sen/gconv_se2.py", "gconv/gnn/modules/gconv_sen/gconv_se3.py", "gconv/gnn/modules/gconv_en/gconv_e2.py", "gconv/gnn/modules/gconv_en/gconv_e3.py"]}
{"id": "C116", "title": "Rounding errors of whole networks", "statement": "If in a network (lifting convolution, activations, normalisations, group and separable convolutions, global average pooling) every layer is computed with an error of at most delta for the features it receives, which are inexact already, the result differs from the exact one by at most kappa delta, where kappa depends on the network and the shape of the input only, not on the images, the errors or delta. Hence for networks on SE(2), SE(3), E(2), E(3) the computed features of an image and of the image turned by a lattice rotation that permutes the group elements differ by at most kappa delta, with one kappa for all images: equivariance is lost at most in proportion to the precision of the arithmetic. (A lifting or group convolution in floating point is such a step, with the bound of C115 as its delta; batch and instance normalisation, in training or evaluation mode, need eps > 0 and running variances that are not negative.)", "quantifier": "all networks of the chain, parameters, images, lattice rotations, delta and errors of the layers", "why_tests_cant": "Quantifies over all images, all networks and all error patterns.", "anchors": ["gconv/gnn/modules/gconv.py", "gconv/gnn/modules/normalization.py", "gconv/gnn/modules/activations.py", "gconv/gnn/modules/pooling.py:GAvgGlobalPool", "gconv/gnn/modules/gconv_sen", "gconv/gnn/modules/gconv_en"]}
