{
 "claims": [
  {
   "property": "C01",
   "status": "proved",
   "theorems": [
    "GConv.SO2.C01_angle_to_matrix_rotation",
    "GConv.SO2.C01_product",
    "GConv.SO2.C01_inverse",
    "GConv.SO2.C01_faithful"
   ],
   "note": ""
  },
  {
   "property": "C02",
   "status": "proved",
   "theorems": [
    "GConv.SO2.C02_range",
    "GConv.SO2.C02_value",
    "GConv.SO2.C02_assoc",
    "GConv.SO2.C02_comm",
    "GConv.SO2.C02_neutral",
    "GConv.SO2.C02_inverse",
    "GConv.SO2.C02_table"
   ],
   "note": ""
  },
  {
   "property": "C03",
   "status": "proved",
   "theorems": [
    "GConv.SO2.C03_length",
    "GConv.SO2.C03_value",
    "GConv.SO2.C03_strictly_increasing",
    "GConv.SO2.C03_range",
    "GConv.SO2.C03_zero_first",
    "GConv.SO2.C03_closed"
   ],
   "note": ""
  },
  {
   "property": "C04",
   "status": "proved",
   "theorems": [
    "GConv.O2.C04_o2",
    "GConv.O3.C04_o3",
    "GConv.SO2.C04_so2",
    "GConv.SO3.C04_so3"
   ],
   "note": ""
  },
  {
   "property": "C05",
   "status": "proved",
   "theorems": [
    "GConv.SO2.C05_value",
    "GConv.SO2.C05_pointwise",
    "GConv.SO2.C05_isometry",
    "GConv.SO2.C05_identity",
    "GConv.SO2.C05_compose",
    "GConv.SO2.C05_euclid"
   ],
   "note": ""
  },
  {
   "property": "C06",
   "status": "proved",
   "theorems": [
    "GConv.SO2.C06_symm",
    "GConv.SO2.C06_invariant",
    "GConv.SO2.C06_well_defined",
    "GConv.SO2.C06_range",
    "GConv.SO2.C06_arc_length",
    "GConv.SO2.C06_exact"
   ],
   "note": ""
  },
  {
   "property": "C07",
   "status": "partial",
   "theorems": [
    "GConv.SO2.C07_partial",
    "GConv.SO2.C07_violated"
   ],
   "note": "The unchanged code violates the property: the row minimum includes the element itself. C07_partial gives the exact value for every grid (a constant), C07_violated a counterexample."
  },
  {
   "property": "C08",
   "status": "proved",
   "theorems": [
    "GConv.O2.C08_closed",
    "GConv.O2.C08_assoc",
    "GConv.O2.C08_neutral",
    "GConv.O2.C08_inverse",
    "GConv.O2.C08_det_mul",
    "GConv.O2.C08_table"
   ],
   "note": ""
  },
  {
   "property": "C09",
   "status": "proved",
   "theorems": [
    "GConv.O2.C09_pointwise",
    "GConv.O2.C09_value",
    "GConv.O2.C09_isometry",
    "GConv.O2.C09_compose",
    "GConv.O2.C09_inverse"
   ],
   "note": ""
  },
  {
   "property": "C10",
   "status": "partial",
   "theorems": [
    "GConv.O2.C10_partial",
    "GConv.O2.C10_violated"
   ],
   "note": "The unchanged code violates the property for every element with coefficient -1: C10_partial gives the true determinant (always 1), C10_violated the negation."
  },
  {
   "property": "C11",
   "status": "proved",
   "theorems": [
    "GConv.O2.C11_o2"
   ],
   "note": ""
  },
  {
   "property": "C12",
   "status": "proved",
   "theorems": [
    "GConv.O2.C12_o2",
    "GConv.O3.C12_o3"
   ],
   "note": ""
  },
  {
   "property": "C13",
   "status": "proved",
   "theorems": [
    "GConv.O2.C13_o2",
    "GConv.O3.C13_o3"
   ],
   "note": ""
  },
  {
   "property": "C14",
   "status": "proved",
   "theorems": [
    "GConv.SO3.C14_x",
    "GConv.SO3.C14_y",
    "GConv.SO3.C14_z",
    "GConv.SO3.C14_axis_angle"
   ],
   "note": ""
  },
  {
   "property": "C15",
   "status": "proved",
   "theorems": [
    "GConv.SO3.C15_rotation",
    "GConv.SO3.C15_product",
    "GConv.SO3.C15_conjugation",
    "GConv.SO3.C15_inverse",
    "GConv.SO3.C15_double_cover"
   ],
   "note": ""
  },
  {
   "property": "C16",
   "status": "proved",
   "theorems": [
    "GConv.SO3.C16_unit_and_inverse",
    "GConv.SO3.C16_surjective"
   ],
   "note": ""
  },
  {
   "property": "C17",
   "status": "proved",
   "theorems": [
    "GConv.SO3.C17_round_trip"
   ],
   "note": ""
  },
  {
   "property": "C18",
   "status": "proved",
   "theorems": [
    "GConv.SO3.C18_raw",
    "GConv.SO3.C18_masked",
    "GConv.SO3.C18_error",
    "GConv.SO3.C18_exact",
    "GConv.SO3.C18_quat"
   ],
   "note": ""
  },
  {
   "property": "C19",
   "status": "proved",
   "theorems": [
    "GConv.SO3.C19_safe",
    "GConv.SO3.C19_gimbal",
    "GConv.SO3.C19_near_zero",
    "GConv.SO3.C19_near_pi",
    "GConv.SO3.C19_all"
   ],
   "note": ""
  },
  {
   "property": "C20",
   "status": "proved",
   "theorems": [
    "GConv.SO3.C20_range",
    "GConv.SO3.C20_tilt",
    "GConv.SO3.C20_gimbal",
    "GConv.SO3.C20_no_adjust"
   ],
   "note": ""
  },
  {
   "property": "C21",
   "status": "partial",
   "theorems": [
    "GConv.SO3.C21_partial",
    "GConv.SO3.C21_violated"
   ],
   "note": "The unchanged code violates the property: it warns only when every rotation of the batch is gimbal locked (C21_partial, exact condition); C21_violated is a mixed batch."
  },
  {
   "property": "C22",
   "status": "partial",
   "theorems": [
    "GConv.SO3.C22_partial",
    "GConv.SO3.C22_violated"
   ],
   "note": "The unchanged code violates the property: every call raises TypeError (C22_partial); C22_violated is the negation."
  },
  {
   "property": "C23",
   "status": "partial",
   "theorems": [
    "GConv.SO3.C23_value_partial",
    "GConv.SO3.C23_exp_log_partial",
    "GConv.SO3.C23_small_partial",
    "GConv.SO3.C23_identity",
    "GConv.SO3.C23_half_turn",
    "GConv.SO3.C23_violated"
   ],
   "note": "Proved: for every rotation away from half turns (C23_value_partial, C23_exp_log_partial), exact value near the identity (C23_small_partial), so3_log(I)=0, exact value at half turns. Missing because false of the code: half turns, where the result is 0 (C23_half_turn, C23_violated)."
  },
  {
   "property": "C24",
   "status": "proved",
   "theorems": [
    "GConv.SO3.C24_unit",
    "GConv.SO3.C24_identity",
    "GConv.SO3.C24_scalar",
    "GConv.SO3.C24_covers"
   ],
   "note": ""
  },
  {
   "property": "C25",
   "status": "proved",
   "theorems": [
    "GConv.SO3.C25_symm",
    "GConv.SO3.C25_sign",
    "GConv.SO3.C25_invariant",
    "GConv.SO3.C25_range",
    "GConv.SO3.C25_half_angle",
    "GConv.SO3.C25_relative_angle"
   ],
   "note": ""
  },
  {
   "property": "C26",
   "status": "proved",
   "theorems": [
    "GConv.SO3.C26_min",
    "GConv.SO3.C26_error",
    "GConv.SO3.C26_matrix"
   ],
   "note": ""
  },
  {
   "property": "C27",
   "status": "proved",
   "theorems": [
    "GConv.SO3.C27_R3",
    "GConv.SO3.C27_isometry",
    "GConv.SO3.C27_compatible",
    "GConv.SO3.C27_table",
    "GConv.SO3.C27_inverse",
    "GConv.SO3.C27_closed"
   ],
   "note": ""
  },
  {
   "property": "C28",
   "status": "proved",
   "theorems": [
    "GConv.SO3.C28_identity",
    "GConv.SO3.C28_klein",
    "GConv.SO3.C28_tetrahedral",
    "GConv.SO3.C28_octahedral",
    "GConv.SO3.C28_icosahedral"
   ],
   "note": ""
  },
  {
   "property": "C29",
   "status": "proved",
   "theorems": [
    "GConv.SO3.C29_x",
    "GConv.SO3.C29_y",
    "GConv.SO3.C29_z",
    "GConv.SO3.C29_dispatch"
   ],
   "note": ""
  },
  {
   "property": "C30",
   "status": "proved",
   "theorems": [
    "GConv.GridCache.C30_load",
    "GConv.GridCache.C30_unknown",
    "GConv.GridCache.C30_write_once"
   ],
   "note": ""
  },
  {
   "property": "C31",
   "status": "partial",
   "theorems": [
    "GConv.SO3.C31_no_cache_partial",
    "GConv.SO3.C31_unknown_param",
    "GConv.SO3.C31_after_caching",
    "GConv.SO3.C31_violated",
    "GConv.SO3.C31_cache_euler"
   ],
   "note": "Proved for every history of non-caching calls (C31_no_cache_partial), ValueError for unknown parameterizations, and the exact effect of caching (C31_after_caching). False of the code after cache_grid=True (C31_violated), and caching an Euler grid raises KeyError (C31_cache_euler)."
  },
  {
   "property": "C32",
   "status": "partial",
   "theorems": [
    "GConv.SO3.C32_rows",
    "GConv.SO3.C32_shapes_partial",
    "GConv.SO3.C32_violated",
    "GConv.SO3.C32_absent"
   ],
   "note": "All rows of all 48 shipped grids are proved to be rotations and to agree; shapes proved except the 'matrix' grid of size 1, which has shape (3,3) (C32_violated)."
  },
  {
   "property": "C33",
   "status": "proved",
   "theorems": [
    "GConv.O3.C33_product",
    "GConv.O3.C33_layout",
    "GConv.O3.C33_closed",
    "GConv.O3.C33_assoc",
    "GConv.O3.C33_neutral",
    "GConv.O3.C33_inverse",
    "GConv.O3.C33_det_mul",
    "GConv.O3.C33_table"
   ],
   "note": ""
  },
  {
   "property": "C34",
   "status": "proved",
   "theorems": [
    "GConv.O3.C34_pointwise",
    "GConv.O3.C34_isometry",
    "GConv.O3.C34_compatible",
    "GConv.O3.C34_det",
    "GConv.O3.C34_faithful",
    "GConv.O3.C34_surjective"
   ],
   "note": ""
  },
  {
   "property": "C35",
   "status": "proved",
   "theorems": [
    "GConv.O3.C35_layout",
    "GConv.O3.C35_shipped",
    "GConv.O3.C35_one_rotation"
   ],
   "note": ""
  },
  {
   "property": "C36",
   "status": "proved",
   "theorems": [
    "GConv.S2.C36_unit",
    "GConv.S2.C36_euclid_round_trip",
    "GConv.S2.C36_spherical_round_trip",
    "GConv.S2.C36_random"
   ],
   "note": ""
  },
  {
   "property": "C37",
   "status": "partial",
   "theorems": [
    "GConv.S2.C37_z_axis_partial",
    "GConv.S2.C37_dispatch_partial",
    "GConv.S2.C37_violated"
   ],
   "note": "Proved: dispatch of every string and the z-axis statement. False of the code: set_alpha_as_neg_gamma raises RuntimeError for every non-empty grid (C37_violated)."
  },
  {
   "property": "C38",
   "status": "proved",
   "theorems": [
    "GConv.Interp.C38_zero",
    "GConv.Interp.C38_even",
    "GConv.Interp.C38_decreasing",
    "GConv.Interp.C38_range",
    "GConv.Interp.C38_half_width"
   ],
   "note": ""
  },
  {
   "property": "C39",
   "status": "proved",
   "theorems": [
    "GConv.Interp.C39_reproduces",
    "GConv.Interp.C39_linear",
    "GConv.Interp.C39_singular",
    "GConv.Interp.C39_value",
    "GConv.SO2.C39_so2",
    "GConv.SO2.C39_so2_value",
    "GConv.SO3.C39_so3",
    "GConv.SO3.C39_so3_value",
    "GConv.O2.C39_o2",
    "GConv.O3.C39_o3"
   ],
   "note": ""
  },
  {
   "property": "C40",
   "status": "proved",
   "theorems": [
    "GConv.Interp.C40_nearest",
    "GConv.Interp.C40_empty",
    "GConv.Interp.C40_short",
    "GConv.SO2.C40_so2",
    "GConv.SO3.C40_so3",
    "GConv.O2.C40_o2",
    "GConv.O3.C40_o3"
   ],
   "note": ""
  },
  {
   "property": "C41",
   "status": "proved",
   "theorems": [
    "GConv.SO2.C41_so2",
    "GConv.SO3.C41_so3",
    "GConv.O2.C41_o2",
    "GConv.O3.C41_o3"
   ],
   "note": ""
  },
  {
   "property": "C42",
   "status": "proved",
   "theorems": [
    "GConv.SO2.C42_so2",
    "GConv.SO3.C42_so3",
    "GConv.O2.C42_o2",
    "GConv.O3.C42_o3"
   ],
   "note": ""
  },
  {
   "property": "C43",
   "status": "proved",
   "theorems": [
    "GConv.Interp.C43_convex",
    "GConv.Interp.C43_barycentric",
    "GConv.Interp.C43_errors"
   ],
   "note": ""
  },
  {
   "property": "C44",
   "status": "proved",
   "theorems": [
    "GConv.Repulsion.C44_in_place",
    "GConv.Repulsion.C44_copy",
    "GConv.Repulsion.C44_noise"
   ],
   "note": ""
  },
  {
   "property": "C45",
   "status": "proved",
   "theorems": [
    "GConv.Repulsion.C45_positive",
    "GConv.Repulsion.C45_decreasing",
    "GConv.Repulsion.C45_value"
   ],
   "note": ""
  },
  {
   "property": "C46",
   "status": "proved",
   "theorems": [
    "GConv.Functional.C46_R3",
    "GConv.Functional.C46_R2",
    "GConv.Functional.C46_reverse",
    "GConv.Functional.C46_size_one",
    "GConv.Functional.C46_moves_R3",
    "GConv.Functional.C46_moves_R2"
   ],
   "note": ""
  },
  {
   "property": "C47",
   "status": "proved",
   "theorems": [
    "GConv.Functional.C47_R3",
    "GConv.Functional.C47_R2",
    "GConv.Functional.C47_odd"
   ],
   "note": ""
  },
  {
   "property": "C48",
   "status": "partial",
   "theorems": [
    "GConv.Functional.C48_support_partial",
    "GConv.Functional.C48_violated"
   ],
   "note": "Proved for every size >= 3 (C48_support_partial). False of the code for sizes 1 and 2, whose mask is all zero (C48_violated)."
  },
  {
   "property": "C49",
   "status": "partial",
   "theorems": [
    "GConv.Functional.C49_R3_partial",
    "GConv.Functional.C49_R2_transposed_partial",
    "GConv.Functional.C49_violated_bilinear",
    "GConv.Functional.C49_violated_R2"
   ],
   "note": "Proved: exact for the identity with mode 'nearest' and 'border' padding (C49_R3_partial; C49_R2_transposed_partial shows the 2D kernel comes back transposed). False of the code for 'bilinear' with larger kernels and for the 2D axis order (C49_violated_bilinear, C49_violated_R2)."
  },
  {
   "property": "C50",
   "status": "proved",
   "theorems": [
    "GConv.GroupKernel.C50_lifting",
    "GConv.KernelSE2.C50_SE2",
    "GConv.KernelSE3.C50_SE3",
    "GConv.KernelE2.C50_E2",
    "GConv.KernelE3.C50_E3"
   ],
   "note": ""
  },
  {
   "property": "C51",
   "status": "proved",
   "theorems": [
    "GConv.GroupKernel.C51_group",
    "GConv.KernelSE2.C51_SE2",
    "GConv.KernelSE3.C51_SE3",
    "GConv.KernelE2.C51_E2",
    "GConv.KernelE3.C51_E3"
   ],
   "note": ""
  },
  {
   "property": "C52",
   "status": "partial",
   "theorems": [
    "GConv.GroupKernel.C52_subgroup_partial",
    "GConv.GroupKernel.C52_separable_partial",
    "GConv.GroupKernel.C52_violated_shape",
    "GConv.KernelSO3.C52_SO3_partial",
    "GConv.KernelSE2.C52_SE2_partial",
    "GConv.KernelSE3.C52_SE3_partial",
    "GConv.KernelE2.C52_E2_partial",
    "GConv.KernelE3.C52_E3_partial"
   ],
   "note": "Proved when |in_H| = |out_H| (C52_subgroup_partial, C52_separable_partial). False of the code otherwise: the view exchanges the two group axes (C52_violated_shape gives the exact values returned)."
  },
  {
   "property": "C53",
   "status": "proved",
   "theorems": [
    "GConv.GroupKernel.C53_bijective",
    "GConv.GroupKernel.C53_not_identity"
   ],
   "note": ""
  },
  {
   "property": "C54",
   "status": "partial",
   "theorems": [
    "GConv.C54_SE3_partial",
    "GConv.C54_E2_partial",
    "GConv.C54_E3_partial",
    "GConv.C54_SE2_violated"
   ],
   "note": "Proved for the SE(3), E(2) and E(3) kernels. False of the SE(2) kernels, which overwrite the argument and always mask (C54_SE2_violated)."
  },
  {
   "property": "C55",
   "status": "partial",
   "theorems": [
    "GConv.C55_SE3_partial",
    "GConv.C55_given",
    "GConv.C55_SE2_violated",
    "GConv.C55_E2_violated",
    "GConv.C55_E2_violated_concrete",
    "GConv.C55_E3_violated",
    "GConv.C55_E3_violated_concrete",
    "GConv.KernelSO3.C55_SO3_grid",
    "GConv.KernelSO3.C55_SO3",
    "GConv.KernelSO3.C55_SO3_given_width"
   ],
   "note": "Proved for the SE(3) kernels (C55_SE3_partial) and for given widths (C55_given). False of the code for SE(2), E(2) (constant width, the row minimum includes the element itself) and E(3) (rows of ten components are used as quaternions): C55_SE2_violated, C55_E2_violated, C55_E3_violated with concrete cases."
  },
  {
   "property": "C56",
   "status": "proved",
   "theorems": [
    "GConv.KernelSO3.C56_SO3",
    "GConv.KernelSE2.C56_SE2",
    "GConv.KernelSE3.C56_SE3",
    "GConv.KernelE2.C56_E2",
    "GConv.KernelE3.C56_E3"
   ],
   "note": ""
  },
  {
   "property": "C57",
   "status": "proved",
   "theorems": [
    "GConv.KernelSE2.C57_SE2",
    "GConv.KernelSE3.C57_SE3",
    "GConv.KernelE2.C57_E2",
    "GConv.KernelE3.C57_E3"
   ],
   "note": ""
  },
  {
   "property": "C58",
   "status": "proved",
   "theorems": [
    "GConv.Conv.C58_rejects",
    "GConv.Conv.C58_accepts",
    "GConv.Conv.C58_layer",
    "GConv.Conv.C58_integer_stride"
   ],
   "note": ""
  },
  {
   "property": "C59",
   "status": "proved",
   "theorems": [
    "GConv.Conv.C59_same_pairs",
    "GConv.Conv.C59_same_size",
    "GConv.Conv.C59_same_geometry"
   ],
   "note": ""
  },
  {
   "property": "C60",
   "status": "proved",
   "theorems": [
    "GConv.Conv.C60_lifting",
    "GConv.Conv.C60_SE2",
    "GConv.Conv.C60_SE3",
    "GConv.Conv.C60_E2",
    "GConv.Conv.C60_E3",
    "GConv.Conv.C60_geometry_2d",
    "GConv.Conv.C60_geometry_3d",
    "GConv.Conv.C60_geometry_SE2",
    "GConv.Conv.C60_geometry_E2",
    "GConv.Conv.C60_geometry_SE3",
    "GConv.Conv.C60_geometry_E3",
    "GConv.Conv.C60_padding",
    "GConv.Conv.C60_SE3_one"
   ],
   "note": ""
  },
  {
   "property": "C61",
   "status": "proved",
   "theorems": [
    "GConv.Conv.C61_group",
    "GConv.Conv.C61_subgroup",
    "GConv.Conv.C61_SE2",
    "GConv.Conv.C61_SE3",
    "GConv.Conv.C61_E2",
    "GConv.Conv.C61_E3",
    "GConv.Conv.C61_geometry_int"
   ],
   "note": ""
  },
  {
   "property": "C62",
   "status": "partial",
   "theorems": [
    "GConv.Conv.C62_formula_partial",
    "GConv.Conv.C62_once_partial",
    "GConv.Conv.C62_extents_partial",
    "GConv.Conv.C62_SE2_partial",
    "GConv.Conv.C62_SE3_partial",
    "GConv.Conv.C62_E2_partial",
    "GConv.Conv.C62_E3_partial",
    "GConv.Conv.C62_violated_padding",
    "GConv.Conv.C62_violated_stride"
   ],
   "note": "Proved: exact formula for every configuration (C62_formula_partial), the full claim for unit strides without padding or with zero padding 'same' (C62_once_partial, C62_extents_partial, and the premade modules). False of the code otherwise: stride and padding are applied by both convolutions (C62_violated_padding, C62_violated_stride)."
  },
  {
   "property": "C63",
   "status": "proved",
   "theorems": [
    "GConv.Conv.C63_lifting",
    "GConv.Conv.C63_group",
    "GConv.Conv.C63_lifting_circular",
    "GConv.Conv.C63_group_circular"
   ],
   "note": ""
  },
  {
   "property": "C64",
   "status": "proved",
   "theorems": [
    "GConv.Conv.C64_SE2",
    "GConv.Conv.C64_SE3"
   ],
   "note": ""
  },
  {
   "property": "C65",
   "status": "proved",
   "theorems": [
    "GConv.Conv.C65_SE2",
    "GConv.Conv.C65_SE2_separable",
    "GConv.Conv.C65_SE3",
    "GConv.Conv.C65_SE3_separable"
   ],
   "note": ""
  },
  {
   "property": "C66",
   "status": "partial",
   "theorems": [
    "GConv.Conv.C66_E2_partial",
    "GConv.Conv.C66_E2_group_partial",
    "GConv.Conv.C66_E2_separable_partial",
    "GConv.Conv.C66_E3_partial",
    "GConv.Conv.C66_E3_group_partial",
    "GConv.Conv.C66_E3_separable_partial",
    "GConv.Conv.C66_violated"
   ],
   "note": "Proved: equivariance up to the factor det g for every lattice symmetry (C66_*_partial), hence exact for coefficient +1. False of the code for coefficient -1: the output changes sign (C66_violated)."
  },
  {
   "property": "C67",
   "status": "proved",
   "theorems": [
    "GConv.Net.C67_SE2_lifting",
    "GConv.Net.C67_SE3_lifting",
    "GConv.Net.C67_E2_lifting",
    "GConv.Net.C67_E3_lifting",
    "GConv.Pooling.C67_global",
    "GConv.Pooling.C67_group"
   ],
   "note": ""
  },
  {
   "property": "C68",
   "status": "partial",
   "theorems": [
    "GConv.Pooling.C68_avg_global_partial",
    "GConv.Pooling.C68_avg_group_partial",
    "GConv.Pooling.C68_max_group_partial",
    "GConv.Pooling.C68_max_global_partial",
    "GConv.Pooling.C68_violated"
   ],
   "note": "Proved for the average pools (exact value and shape). False of the max pools: they return a (values, indices) pair (C68_max_*_partial give the pair exactly, C68_violated the negation)."
  },
  {
   "property": "C69",
   "status": "partial",
   "theorems": [
    "GConv.Pooling.C69_partial",
    "GConv.Pooling.C69_violated"
   ],
   "note": "False of the code: the call succeeds exactly when the pooled spatial volume is 1, and then the spatial axes are dropped (C69_partial, C69_violated)."
  },
  {
   "property": "C70",
   "status": "proved",
   "theorems": [
    "GConv.Normalization.C70_batch_output",
    "GConv.Normalization.C70_instance_output",
    "GConv.Normalization.C70_eval_output",
    "GConv.Normalization.C70_batch_statistics",
    "GConv.Normalization.C70_batch_eval",
    "GConv.Normalization.C70_batch_single",
    "GConv.Normalization.C70_instance_statistics",
    "GConv.Normalization.C70_instance_eval",
    "GConv.Normalization.C70_batch_reorder",
    "GConv.Normalization.C70_instance_reorder"
   ],
   "note": ""
  },
  {
   "property": "C71",
   "status": "partial",
   "theorems": [
    "GConv.Activations.C71_relu_partial",
    "GConv.Activations.C71_leaky_partial",
    "GConv.Activations.C71_gelu_partial",
    "GConv.Activations.C71_pointwise_partial",
    "GConv.Activations.C71_violated",
    "GConv.Activations.C71_wrapped_function_partial"
   ],
   "note": "Proved for GReLU, GLeakyReLU, GGELU. False of GWrap: its constructor raises AttributeError for every module, and calling a wrapped plain function raises too (C71_violated)."
  },
  {
   "property": "C72",
   "status": "proved",
   "theorems": [
    "GConv.Conv.C72_options_SE2",
    "GConv.Conv.C72_options_E2",
    "GConv.Conv.C72_options_SE3",
    "GConv.Conv.C72_options_E3",
    "GConv.Conv.C72_lifting",
    "GConv.Conv.C72_groupSE",
    "GConv.Conv.C72_separableSE",
    "GConv.Conv.C72_groupE",
    "GConv.Conv.C72_separableE",
    "GConv.Conv.C72_single",
    "GConv.Conv.C72_random_SE2",
    "GConv.Conv.C72_random_SE3",
    "GConv.Conv.C72_random_E2",
    "GConv.Conv.C72_random_E3"
   ],
   "note": ""
  },
  {
   "property": "C73",
   "status": "proved",
   "theorems": [
    "GConv.Linear.C73_any_lifting",
    "GConv.Linear.C73_any_group",
    "GConv.Linear.C73_any_separable",
    "GConv.Linear.C73_any_module",
    "GConv.Conv.C73_lifting",
    "GConv.Conv.C73_group",
    "GConv.Conv.C73_separable"
   ],
   "note": ""
  },
  {
   "property": "C74",
   "status": "proved",
   "theorems": [
    "GConv.Conv.C74_SE2_lifting",
    "GConv.Conv.C74_SE2_group",
    "GConv.Conv.C74_SE2_separable",
    "GConv.Conv.C74_SE3_lifting",
    "GConv.Conv.C74_SE3_group",
    "GConv.Conv.C74_SE3_separable",
    "GConv.Conv.C74_E2_lifting",
    "GConv.Conv.C74_E2_group",
    "GConv.Conv.C74_E2_separable",
    "GConv.Conv.C74_E3_lifting",
    "GConv.Conv.C74_E3_group",
    "GConv.Conv.C74_E3_separable"
   ],
   "note": ""
  },
  {
   "property": "C75",
   "status": "proved",
   "theorems": [
    "GConv.Net.C75_SE2",
    "GConv.Net.C75_SE2_invariant",
    "GConv.Net.C75_SE3",
    "GConv.Net.C75_SE3_invariant",
    "GConv.Net.C75_E2",
    "GConv.Net.C75_E2_invariant",
    "GConv.Net.C75_E3",
    "GConv.Net.C75_E3_invariant",
    "GConv.Net.C75_uniform_closed",
    "GConv.Net.C75_draw_SE2",
    "GConv.Net.C75_draw_SE3"
   ],
   "note": ""
  },
  {
   "property": "C76",
   "status": "proved",
   "theorems": [
    "GConv.Normalization.C76_cumulative",
    "GConv.Normalization.C76_exponential"
   ],
   "note": ""
  },
  {
   "property": "C77",
   "status": "proved",
   "theorems": [
    "GConv.Normalization.C77_layer",
    "GConv.Normalization.C77_rejects",
    "GConv.Normalization.C77_reorder"
   ],
   "note": ""
  },
  {
   "property": "C78",
   "status": "proved",
   "theorems": [
    "GConv.SO2.C78_so2",
    "GConv.SO2.C78_so2_arc",
    "GConv.O2.C78_o2",
    "GConv.SO3.C78_quat",
    "GConv.SO3.C78_matrix",
    "GConv.SO3.C78_nonzero",
    "GConv.O3.C78_o3",
    "GConv.S2.C78_s2",
    "GConv.Conv.C78_permute_SE2",
    "GConv.Conv.C78_permute_SE3",
    "GConv.Conv.C78_permute_E2",
    "GConv.Conv.C78_permute_E3"
   ],
   "note": ""
  },
  {
   "property": "C79",
   "status": "proved",
   "theorems": [
    "GConv.Init.C79_lifting",
    "GConv.Init.C79_group",
    "GConv.Init.C79_subgroup",
    "GConv.Init.C79_separable",
    "GConv.Init.C79_scale_uniform",
    "GConv.Init.C79_scale_normal"
   ],
   "note": ""
  },
  {
   "property": "C80",
   "status": "proved",
   "theorems": [
    "GConv.Linear.C80_lifting",
    "GConv.Linear.C80_group",
    "GConv.Linear.C80_subgroup",
    "GConv.Linear.C80_separable_H",
    "GConv.Linear.C80_separable_w",
    "GConv.Linear.C80_kernels_SE2",
    "GConv.Linear.C80_kernels_SE3",
    "GConv.Linear.C80_kernels_E2",
    "GConv.Linear.C80_kernels_E3",
    "GConv.Linear.C80_kernels_SO3",
    "GConv.Linear.C80_module"
   ],
   "note": ""
  },
  {
   "property": "C81",
   "status": "proved",
   "theorems": [
    "GConv.Batch.C81_lifting",
    "GConv.Batch.C81_group",
    "GConv.Batch.C81_subgroup",
    "GConv.Batch.C81_separable",
    "GConv.Batch.C81_act",
    "GConv.Batch.C81_batch_norm_eval",
    "GConv.Batch.C81_instance_norm",
    "GConv.Batch.C81_layer_norm",
    "GConv.Batch.C81_avg_group",
    "GConv.Batch.C81_max_group",
    "GConv.Batch.C81_avg_global",
    "GConv.Batch.C81_max_global",
    "GConv.Batch.C81_spatial",
    "GConv.Batch.C81_network",
    "GConv.Batch.C81_classifier",
    "GConv.Batch.C81_modules"
   ],
   "note": ""
  },
  {
   "property": "C82",
   "status": "proved",
   "theorems": [
    "GConv.Conv.C82_lifting",
    "GConv.Conv.C82_group",
    "GConv.Conv.C82_subgroup",
    "GConv.Conv.C82_separable",
    "GConv.Conv.C82_window",
    "GConv.Conv.C82_impulse"
   ],
   "note": ""
  },
  {
   "property": "C83",
   "status": "proved",
   "theorems": [
    "GConv.S2.C83_s2_value",
    "GConv.S2.C83_s2_symm",
    "GConv.S2.C83_s2_invariant",
    "GConv.S2.C83_s2_self",
    "GConv.S2.C83_s2_range",
    "GConv.S2.C83_s2_triangle",
    "GConv.SO2.C83_so2_triangle",
    "GConv.SO3.C83_so3_triangle"
   ],
   "note": ""
  },
  {
   "property": "C84",
   "status": "proved",
   "theorems": [
    "GConv.Repulsion.C84_pairs",
    "GConv.Repulsion.C84_order",
    "GConv.Repulsion.C84_isometry",
    "GConv.Repulsion.C84_spreading",
    "GConv.Repulsion.C84_s2",
    "GConv.Repulsion.C84_so3",
    "GConv.Repulsion.C84_so3_unit"
   ],
   "note": ""
  },
  {
   "property": "C85",
   "status": "partial",
   "theorems": [
    "GConv.Memory.C85_parameters",
    "GConv.Memory.C85_load",
    "GConv.Memory.C85_private_partial",
    "GConv.Memory.C85_stable_partial",
    "GConv.Memory.C85_shared",
    "GConv.Memory.C85_violated"
   ],
   "note": "False of the code: load_grid returns the cached tensor object without copying and the kernel registers it as grid_H, so load_state_dict on one SE(3)/SO(3) layer of size 1..24 changes the cache, all other such layers and later so3.uniform_grid results (C85_shared, C85_violated). Proved for all histories: parameters are private and loads set exactly the given values (C85_parameters, C85_load), layers with a new grid are independent (C85_private_partial), nothing changes without writes (C85_stable_partial)."
  },
  {
   "property": "C86",
   "status": "partial",
   "theorems": [
    "GConv.C86_mismatch",
    "GConv.KernelSE2.C86_SE2",
    "GConv.KernelE2.C86_E2",
    "GConv.KernelSE3.C86_SE3_lifting",
    "GConv.KernelSE3.C86_SE3_width_partial",
    "GConv.KernelSE3.C86_SE3_shipped_partial",
    "GConv.KernelSE3.C86_SE3_width_kept",
    "GConv.KernelE3.C86_E3_lifting",
    "GConv.KernelE3.C86_E3_width_partial",
    "GConv.KernelE3.C86_E3_shipped_partial",
    "GConv.KernelSO3.C86_SO3_mismatch",
    "GConv.KernelSO3.C86_SO3_width_partial",
    "GConv.KernelSO3.C86_SO3_shipped_partial",
    "GConv.KernelSO3.C86_SO3_width_kept",
    "GConv.C86_SE3_violated"
   ],
   "note": "False of the code: the default RBF width is computed from the randomly optimised grid at construction and is not part of the state, so a restored SE(3) kernel of a size above 24 samples with another width (C86_SE3_width_kept, C86_SE3_violated). Proved: SE(2) and E(2) kernels, all lifting kernels, and SE(3)/E(3) kernels with given widths, given grids or shipped sizes. The same for GSubgroupKernelSO3 (C86_SO3_*; the wrong width there: C86_SO3_width_kept)."
  },
  {
   "property": "C87",
   "status": "partial",
   "theorems": [
    "GConv.KernelSO3.C87_SO3_partial",
    "GConv.KernelSO3.C87_violated_SO3",
    "GConv.C87_SE2_partial",
    "GConv.C87_SE3_partial",
    "GConv.C87_E2_partial",
    "GConv.C87_E3_partial",
    "GConv.C87_violated_SE3",
    "GConv.C87_violated_E3"
   ],
   "note": "Proved for SE(2) and E(2) with 1..10^6 rotations per coset (for larger sizes the cut-off of the distance makes neighbours indistinguishable) and for all shipped grids (2..24) of SE(3) and E(3); separable kernels for equal input and output grid sizes (see C52). False of the code for one rotation: SE(3) evaluation raises (C87_violated_SE3), the E(3) constructor raises (C87_violated_E3). The same for GSubgroupKernelSO3: C87_SO3_partial for 2..24 rotations, C87_violated_SO3 for one. Sizes above 24 depend on the random optimised grid."
  },
  {
   "property": "C88",
   "status": "proved",
   "theorems": [
    "GConv.C88_SE2",
    "GConv.C88_SE3",
    "GConv.C88_E2",
    "GConv.C88_E3",
    "GConv.C88_SE2_default",
    "GConv.C88_SE3_default",
    "GConv.C88_E2_default",
    "GConv.C88_E3_default"
   ],
   "note": ""
  },
  {
   "property": "C89",
   "status": "partial",
   "theorems": [
    "GConv.C89_SE2_partial",
    "GConv.C89_SE3_partial",
    "GConv.C89_violated_E2",
    "GConv.C89_violated_E3"
   ],
   "note": "Proved for the SE(2) and SE(3) kernels (C89_SE2_partial, C89_SE3_partial). False of the E(2) and E(3) kernels, which keep group_kernel_size for the weight: with a grid of another number of elements no rbf evaluation succeeds (C89_violated_E2, C89_violated_E3)."
  },
  {
   "property": "C90",
   "status": "partial",
   "theorems": [
    "GConv.C90_SE2_partial",
    "GConv.C90_E2_partial",
    "GConv.C90_violated_E2"
   ],
   "note": "Proved for angles differing by full turns, for SE(2) and E(2), kernels and layers including errors. False of E(2) in general: (-1,t) and (1,t+pi) act identically on the plane but their lifting kernels are negatives of each other because det is the coefficient (C90_violated_E2, see C10)."
  },
  {
   "property": "C91",
   "status": "proved",
   "theorems": [
    "GConv.C91_SE2",
    "GConv.C91_SE2_group",
    "GConv.C91_SE3",
    "GConv.C91_SE3_group",
    "GConv.C91_E2",
    "GConv.C91_E2_group",
    "GConv.C91_E3",
    "GConv.C91_E3_group",
    "GConv.C91_lifting_layer",
    "GConv.C91_group_layer"
   ],
   "note": ""
  },
  {
   "property": "C92",
   "status": "proved",
   "theorems": [
    "GConv.C92_SE2_lifting",
    "GConv.C92_SE2",
    "GConv.C92_SE3_lifting",
    "GConv.C92_SE3",
    "GConv.C92_E2_lifting",
    "GConv.C92_E2",
    "GConv.C92_E3_lifting",
    "GConv.C92_E3",
    "GConv.C92_lifting_layer",
    "GConv.C92_group_layer"
   ],
   "note": ""
  },
  {
   "property": "C93",
   "status": "proved",
   "theorems": [
    "GConv.Net.C93_SE2",
    "GConv.Net.C93_SE2_avg",
    "GConv.Net.C93_SE2_max",
    "GConv.Net.C93_SE3",
    "GConv.Net.C93_SE3_avg",
    "GConv.Net.C93_SE3_max",
    "GConv.Net.C93_E2",
    "GConv.Net.C93_E2_avg",
    "GConv.Net.C93_E2_max",
    "GConv.Net.C93_E3",
    "GConv.Net.C93_E3_avg",
    "GConv.Net.C93_E3_max",
    "GConv.Net.C93_value",
    "GConv.Net.C93_mean"
   ],
   "note": ""
  },
  {
   "property": "C94",
   "status": "proved",
   "theorems": [
    "GConv.Torus.C94_group",
    "GConv.Torus.C94_lifting",
    "GConv.Torus.C94_batch_norm",
    "GConv.Torus.C94_instance_norm",
    "GConv.Torus.C94_avg_global",
    "GConv.Torus.C94_max_global",
    "GConv.Torus.C94_network",
    "GConv.Torus.C94_lifted_network",
    "GConv.Torus.C94_classifier",
    "GConv.Torus.C94_modules"
   ],
   "note": ""
  },
  {
   "property": "C95",
   "status": "proved",
   "theorems": [
    "GConv.Crop.C95_lifting",
    "GConv.Crop.C95_group",
    "GConv.Crop.C95_subgroup",
    "GConv.Crop.C95_separable",
    "GConv.Crop.C95_act",
    "GConv.Crop.C95_batch_norm",
    "GConv.Crop.C95_instance_norm",
    "GConv.Crop.C95_network",
    "GConv.Crop.C95_lifted_network",
    "GConv.Crop.C95_modules"
   ],
   "note": ""
  },
  {
   "property": "C96",
   "status": "partial",
   "theorems": [
    "GConv.Conv.C96_lifting_rejects",
    "GConv.Conv.C96_lifting",
    "GConv.Conv.C96_lifting_rank",
    "GConv.Conv.C96_violated_unbatched",
    "GConv.Conv.C96_group_entries",
    "GConv.Conv.C96_group_rejects",
    "GConv.Conv.C96_group_rereads",
    "GConv.Conv.C96_group_partial",
    "GConv.Conv.C96_violated_swapped",
    "GConv.Conv.C96_violated_rereads",
    "GConv.Conv.C96_violated_order"
   ],
   "note": "Lifting layers: batched inputs are accepted exactly if they fit (C96_lifting), other ranks are rejected (C96_lifting_rank) except one unbatched sample, which is accepted and misread when its number of channels is the first output extent (C96_violated_unbatched). Group, subgroup and separable layers: a wrong number of group elements or of channels alone is rejected (C96_group_rejects); the exact condition is on the product of the two (C96_group_partial), so inputs with swapped channel and group axes are accepted and misread (C96_violated_swapped, C96_violated_rereads)."
  },
  {
   "property": "C97",
   "status": "proved",
   "theorems": [
    "GConv.Net.C97_SE2",
    "GConv.Net.C97_SE3",
    "GConv.Net.C97_E2",
    "GConv.Net.C97_E3",
    "GConv.Net.C97_distinct_SE2",
    "GConv.Net.C97_distinct_E2",
    "GConv.Net.C97_closed_E2",
    "GConv.Net.C97_klein",
    "GConv.Net.C97_tetrahedral",
    "GConv.Net.C97_SE2_uniform",
    "GConv.Net.C97_E2_uniform",
    "GConv.Net.C97_cyclic"
   ],
   "note": ""
  },
  {
   "property": "C98",
   "status": "proved",
   "theorems": [
    "GConv.Conv.C98_prints",
    "GConv.Conv.C98_determines",
    "GConv.Conv.C98_public",
    "GConv.Conv.C98_integer_dilation",
    "GConv.GroupKernel.C98_mask"
   ],
   "note": ""
  },
  {
   "property": "C99",
   "status": "proved",
   "theorems": [
    "GConv.Readme.C99_runs",
    "GConv.Readme.C99_readme",
    "GConv.Readme.C99_invariant",
    "GConv.Readme.C99_violated_deterministic"
   ],
   "note": ""
  },
  {
   "property": "C100",
   "status": "proved",
   "theorems": [
    "GConv.Custom.C100_lifting",
    "GConv.Custom.C100_group",
    "GConv.Custom.C100_separable"
   ],
   "note": ""
  },
  {
   "property": "C101",
   "status": "partial",
   "theorems": [
    "GConv.Tutorial.C101_ops_partial",
    "GConv.Tutorial.C101_sample_partial",
    "GConv.Tutorial.C101_violated_constant",
    "GConv.Tutorial.C101_violated_at_grid",
    "GConv.Tutorial.C101_violated_single",
    "GConv.Tutorial.C101_lifting_partial",
    "GConv.Tutorial.C101_separable_partial",
    "GConv.Tutorial.C101_program_partial"
   ],
   "note": "Proved: the group operations (C101_ops_partial), what the sampler returns (C101_sample_partial), the program with the values and shapes of its feature maps for all sizes (C101_program_partial), equivariance of both layers (C101_lifting_partial, C101_separable_partial). False of the code: the interpolation; the two farthest grid elements are used, so the constant signal 1 is read as a number <= 0 (C101_violated_constant), the stored value at a grid element does not enter the result there (C101_violated_at_grid), and one-element grids raise (C101_violated_single)."
  },
  {
   "property": "C102",
   "status": "partial",
   "theorems": [
    "GConv.Layout.C102_view",
    "GConv.Layout.C102_new",
    "GConv.Layout.C102_reshape",
    "GConv.Layout.C102_split",
    "GConv.Layout.C102_lifting_partial",
    "GConv.Layout.C102_group_partial",
    "GConv.Layout.C102_separable_partial",
    "GConv.Layout.C102_merge",
    "GConv.Layout.C102_batch_norm_partial",
    "GConv.Layout.C102_instance_norm_partial",
    "GConv.Layout.C102_norm_violated",
    "GConv.Layout.C102_rows",
    "GConv.Layout.C102_transposed_violated",
    "GConv.Layout.C102_channels_last_violated"
   ],
   "note": "Proved: exact criterion for view, reshape and for merging and splitting axes (C102_view, C102_reshape, C102_merge, C102_split); the convolutions do not depend on any layout (C102_lifting_partial, C102_group_partial, C102_separable_partial); the normalisations do not when the group axis and the first spatial axis can be merged (C102_batch_norm_partial, C102_instance_norm_partial), which row-major tensors satisfy (C102_rows). False of the code otherwise: they raise RuntimeError (C102_norm_violated), e.g. for transposed maps (C102_transposed_violated) and after a channels-last convolution (C102_channels_last_violated)."
  },
  {
   "property": "C103",
   "status": "proved",
   "theorems": [
    "GConv.Stability.C103_lifting",
    "GConv.Stability.C103_group",
    "GConv.Stability.C103_subgroup",
    "GConv.Stability.C103_separable",
    "GConv.Stability.C103_act",
    "GConv.Stability.C103_batch_norm",
    "GConv.Stability.C103_batch_norm_eval",
    "GConv.Stability.C103_instance_norm",
    "GConv.Stability.C103_instance_norm_eval",
    "GConv.Stability.C103_layer_norm",
    "GConv.Stability.C103_avg_pool",
    "GConv.Stability.C103_max_pool",
    "GConv.Stability.C103_network",
    "GConv.Stability.C103_classifier",
    "GConv.Stability.C103_eps_needed"
   ],
   "note": ""
  },
  {
   "property": "C104",
   "status": "proved",
   "theorems": [
    "GConv.C104_quat",
    "GConv.C104_matrix",
    "GConv.C104_degrees"
   ],
   "note": ""
  },
  {
   "property": "C105",
   "status": "proved",
   "theorems": [
    "GConv.C105_SE2",
    "GConv.C105_SE3",
    "GConv.C105_E2",
    "GConv.C105_E3"
   ],
   "note": ""
  },
  {
   "property": "C106",
   "status": "proved",
   "theorems": [
    "GConv.C106_lifting_2",
    "GConv.C106_group_2",
    "GConv.C106_separable_2",
    "GConv.C106_lifting_3",
    "GConv.C106_group_3",
    "GConv.C106_separable_3"
   ],
   "note": ""
  },
  {
   "property": "C107",
   "status": "proved",
   "theorems": [
    "GConv.Conv.C107_lifting_SE2",
    "GConv.Conv.C107_group_SE2",
    "GConv.Conv.C107_separable_SE2",
    "GConv.Conv.C107_lifting_SE3",
    "GConv.Conv.C107_group_SE3",
    "GConv.Conv.C107_separable_SE3",
    "GConv.Conv.C107_lifting_E2",
    "GConv.Conv.C107_group_E2",
    "GConv.Conv.C107_separable_E2",
    "GConv.Conv.C107_lifting_E3",
    "GConv.Conv.C107_group_E3",
    "GConv.Conv.C107_separable_E3",
    "GConv.Conv.C107_tests_SE2",
    "GConv.Conv.C107_tests_SE3",
    "GConv.Conv.C107_tests_E2",
    "GConv.Conv.C107_tests_E3"
   ],
   "note": ""
  },
  {
   "property": "C108",
   "status": "proved",
   "theorems": [
    "GConv.Blocks.C108_lifting",
    "GConv.Blocks.C108_group",
    "GConv.Blocks.C108_subgroup",
    "GConv.Blocks.C108_separable",
    "GConv.Blocks.C108_modules",
    "GConv.Blocks.C108_forward_lifting",
    "GConv.Blocks.C108_forward_groupSE",
    "GConv.Blocks.C108_forward_groupE",
    "GConv.Blocks.C108_forward_separableSE",
    "GConv.Blocks.C108_forward_separableE"
   ],
   "note": ""
  },
  {
   "property": "C109",
   "status": "proved",
   "theorems": [
    "GConv.Conv.C109_group",
    "GConv.Conv.C109_SE2",
    "GConv.Conv.C109_SE3",
    "GConv.Conv.C109_E2",
    "GConv.Conv.C109_E3"
   ],
   "note": ""
  },
  {
   "property": "C110",
   "status": "proved",
   "theorems": [
    "GConv.Net.C110_SE2",
    "GConv.Net.C110_SE3",
    "GConv.Net.C110_E2",
    "GConv.Net.C110_E3",
    "GConv.Net.C110_torus"
   ],
   "note": ""
  },
  {
   "property": "C111",
   "status": "proved",
   "theorems": [
    "GConv.Branch.C111_SE2",
    "GConv.Branch.C111_SE2_invariant",
    "GConv.Branch.C111_SE3",
    "GConv.Branch.C111_SE3_invariant",
    "GConv.Branch.C111_E2",
    "GConv.Branch.C111_E2_invariant",
    "GConv.Branch.C111_E3",
    "GConv.Branch.C111_E3_invariant"
   ],
   "note": ""
  },
  {
   "property": "C112",
   "status": "proved",
   "theorems": [
    "GConv.Conv.C112_fibres",
    "GConv.Conv.C112_SO3"
   ],
   "note": ""
  },
  {
   "property": "C113",
   "status": "proved",
   "theorems": [
    "GConv.Conv.C113_SE2",
    "GConv.Conv.C113_E2"
   ],
   "note": ""
  },
  {
   "property": "C114",
   "status": "proved",
   "theorems": [
    "GConv.Conv.C114_SE2",
    "GConv.Conv.C114_SE3",
    "GConv.Conv.C114_E2",
    "GConv.Conv.C114_E3"
   ],
   "note": ""
  },
  {
   "property": "C115",
   "status": "proved",
   "theorems": [
    "GConv.Rounding.C115_lifting",
    "GConv.Rounding.C115_group",
    "GConv.Rounding.C115_SE2",
    "GConv.Rounding.C115_SE2_group",
    "GConv.Rounding.C115_SE3",
    "GConv.Rounding.C115_SE3_group",
    "GConv.Rounding.C115_exact",
    "GConv.Rounding.C115_exact_group",
    "GConv.Rounding.C115_E2",
    "GConv.Rounding.C115_E2_group",
    "GConv.Rounding.C115_E3",
    "GConv.Rounding.C115_E3_group"
   ],
   "note": ""
  },
  {
   "property": "C116",
   "status": "proved",
   "theorems": [
    "GConv.Rounding.C116_network",
    "GConv.Rounding.C116_classifier",
    "GConv.Rounding.C116_SE2",
    "GConv.Rounding.C116_SE3",
    "GConv.Rounding.C116_E2",
    "GConv.Rounding.C116_E3",
    "GConv.Rounding.C116_group_step",
    "GConv.Rounding.C116_lifting_step",
    "GConv.Rounding.C116_exact"
   ],
   "note": ""
  }
 ]
}