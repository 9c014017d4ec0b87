import Verif.Props.Activations
import Verif.Props.Batch
import Verif.Props.Blocks
import Verif.Props.Continuity
import Verif.Props.ConvForward
import Verif.Props.ConvInit
import Verif.Props.Crop
import Verif.Props.Custom
import Verif.Props.DefaultGrids
import Verif.Props.DefaultSO3
import Verif.Props.DefaultSampling
import Verif.Props.Energy
import Verif.Props.Exact
import Verif.Props.Fibres
import Verif.Props.Functional
import Verif.Props.Geometry
import Verif.Props.GeometryE2
import Verif.Props.Graph
import Verif.Props.GridCache
import Verif.Props.GridOverride
import Verif.Props.GridTables
import Verif.Props.Init
import Verif.Props.Interp
import Verif.Props.Invariance
import Verif.Props.Kernel
import Verif.Props.KernelDefaults
import Verif.Props.KernelInstances
import Verif.Props.Law
import Verif.Props.Layout
import Verif.Props.Linear
import Verif.Props.Local
import Verif.Props.Memory
import Verif.Props.Metric
import Verif.Props.Misfit
import Verif.Props.Modules
import Verif.Props.Network
import Verif.Props.NormStats
import Verif.Props.Normalization
import Verif.Props.O2
import Verif.Props.O3
import Verif.Props.Padding
import Verif.Props.Parts
import Verif.Props.Pooling
import Verif.Props.Product
import Verif.Props.Random
import Verif.Props.Range
import Verif.Props.Readme
import Verif.Props.ReadmeRandom
import Verif.Props.Recover
import Verif.Props.Regular
import Verif.Props.Reorder
import Verif.Props.Repr
import Verif.Props.Representatives
import Verif.Props.Repulsion
import Verif.Props.Rotation
import Verif.Props.Rotations
import Verif.Props.RoundedNet
import Verif.Props.Rounding
import Verif.Props.RoundingE
import Verif.Props.S2
import Verif.Props.SO2
import Verif.Props.SO3
import Verif.Props.SO3Euler
import Verif.Props.SO3Log
import Verif.Props.Separable
import Verif.Props.SizeOne
import Verif.Props.Spread
import Verif.Props.Stability
import Verif.Props.StabilityNet
import Verif.Props.StateDict
import Verif.Props.StateSO3
import Verif.Props.StateWidth
import Verif.Props.Tables
import Verif.Props.Torus
import Verif.Props.Training
import Verif.Props.TrainingTorus
import Verif.Props.Translation
import Verif.Props.Tutorial
import Verif.Props.Usable
#print axioms GConv.SO2.C01_angle_to_matrix_rotation
#print axioms GConv.SO2.C01_product
#print axioms GConv.SO2.C01_inverse
#print axioms GConv.SO2.C01_faithful
#print axioms GConv.SO2.C02_range
#print axioms GConv.SO2.C02_value
#print axioms GConv.SO2.C02_assoc
#print axioms GConv.SO2.C02_comm
#print axioms GConv.SO2.C02_neutral
#print axioms GConv.SO2.C02_inverse
#print axioms GConv.SO2.C02_table
#print axioms GConv.SO2.C03_length
#print axioms GConv.SO2.C03_value
#print axioms GConv.SO2.C03_strictly_increasing
#print axioms GConv.SO2.C03_range
#print axioms GConv.SO2.C03_zero_first
#print axioms GConv.SO2.C03_closed
#print axioms GConv.O2.C04_o2
#print axioms GConv.O3.C04_o3
#print axioms GConv.SO2.C04_so2
#print axioms GConv.SO3.C04_so3
#print axioms GConv.SO2.C05_value
#print axioms GConv.SO2.C05_pointwise
#print axioms GConv.SO2.C05_isometry
#print axioms GConv.SO2.C05_identity
#print axioms GConv.SO2.C05_compose
#print axioms GConv.SO2.C05_euclid
#print axioms GConv.SO2.C06_symm
#print axioms GConv.SO2.C06_invariant
#print axioms GConv.SO2.C06_well_defined
#print axioms GConv.SO2.C06_range
#print axioms GConv.SO2.C06_arc_length
#print axioms GConv.SO2.C06_exact
#print axioms GConv.SO2.C07_partial
#print axioms GConv.SO2.C07_violated
#print axioms GConv.O2.C08_closed
#print axioms GConv.O2.C08_assoc
#print axioms GConv.O2.C08_neutral
#print axioms GConv.O2.C08_inverse
#print axioms GConv.O2.C08_det_mul
#print axioms GConv.O2.C08_table
#print axioms GConv.O2.C09_pointwise
#print axioms GConv.O2.C09_value
#print axioms GConv.O2.C09_isometry
#print axioms GConv.O2.C09_compose
#print axioms GConv.O2.C09_inverse
#print axioms GConv.O2.C10_partial
#print axioms GConv.O2.C10_violated
#print axioms GConv.O2.C11_o2
#print axioms GConv.O2.C12_o2
#print axioms GConv.O3.C12_o3
#print axioms GConv.O2.C13_o2
#print axioms GConv.O3.C13_o3
#print axioms GConv.SO3.C14_x
#print axioms GConv.SO3.C14_y
#print axioms GConv.SO3.C14_z
#print axioms GConv.SO3.C14_axis_angle
#print axioms GConv.SO3.C15_rotation
#print axioms GConv.SO3.C15_product
#print axioms GConv.SO3.C15_conjugation
#print axioms GConv.SO3.C15_inverse
#print axioms GConv.SO3.C15_double_cover
#print axioms GConv.SO3.C16_unit_and_inverse
#print axioms GConv.SO3.C16_surjective
#print axioms GConv.SO3.C17_round_trip
#print axioms GConv.SO3.C18_raw
#print axioms GConv.SO3.C18_masked
#print axioms GConv.SO3.C18_error
#print axioms GConv.SO3.C18_exact
#print axioms GConv.SO3.C18_quat
#print axioms GConv.SO3.C19_safe
#print axioms GConv.SO3.C19_gimbal
#print axioms GConv.SO3.C19_near_zero
#print axioms GConv.SO3.C19_near_pi
#print axioms GConv.SO3.C19_all
#print axioms GConv.SO3.C20_range
#print axioms GConv.SO3.C20_tilt
#print axioms GConv.SO3.C20_gimbal
#print axioms GConv.SO3.C20_no_adjust
#print axioms GConv.SO3.C21_partial
#print axioms GConv.SO3.C21_violated
#print axioms GConv.SO3.C22_partial
#print axioms GConv.SO3.C22_violated
#print axioms GConv.SO3.C23_value_partial
#print axioms GConv.SO3.C23_exp_log_partial
#print axioms GConv.SO3.C23_small_partial
#print axioms GConv.SO3.C23_identity
#print axioms GConv.SO3.C23_half_turn
#print axioms GConv.SO3.C23_violated
#print axioms GConv.SO3.C24_unit
#print axioms GConv.SO3.C24_identity
#print axioms GConv.SO3.C24_scalar
#print axioms GConv.SO3.C24_covers
#print axioms GConv.SO3.C25_symm
#print axioms GConv.SO3.C25_sign
#print axioms GConv.SO3.C25_invariant
#print axioms GConv.SO3.C25_range
#print axioms GConv.SO3.C25_half_angle
#print axioms GConv.SO3.C25_relative_angle
#print axioms GConv.SO3.C26_min
#print axioms GConv.SO3.C26_error
#print axioms GConv.SO3.C26_matrix
#print axioms GConv.SO3.C27_R3
#print axioms GConv.SO3.C27_isometry
#print axioms GConv.SO3.C27_compatible
#print axioms GConv.SO3.C27_table
#print axioms GConv.SO3.C27_inverse
#print axioms GConv.SO3.C27_closed
#print axioms GConv.SO3.C28_identity
#print axioms GConv.SO3.C28_klein
#print axioms GConv.SO3.C28_tetrahedral
#print axioms GConv.SO3.C28_octahedral
#print axioms GConv.SO3.C28_icosahedral
#print axioms GConv.SO3.C29_x
#print axioms GConv.SO3.C29_y
#print axioms GConv.SO3.C29_z
#print axioms GConv.SO3.C29_dispatch
#print axioms GConv.GridCache.C30_load
#print axioms GConv.GridCache.C30_unknown
#print axioms GConv.GridCache.C30_write_once
#print axioms GConv.SO3.C31_no_cache_partial
#print axioms GConv.SO3.C31_unknown_param
#print axioms GConv.SO3.C31_after_caching
#print axioms GConv.SO3.C31_violated
#print axioms GConv.SO3.C31_cache_euler
#print axioms GConv.SO3.C32_rows
#print axioms GConv.SO3.C32_shapes_partial
#print axioms GConv.SO3.C32_violated
#print axioms GConv.SO3.C32_absent
#print axioms GConv.O3.C33_product
#print axioms GConv.O3.C33_layout
#print axioms GConv.O3.C33_closed
#print axioms GConv.O3.C33_assoc
#print axioms GConv.O3.C33_neutral
#print axioms GConv.O3.C33_inverse
#print axioms GConv.O3.C33_det_mul
#print axioms GConv.O3.C33_table
#print axioms GConv.O3.C34_pointwise
#print axioms GConv.O3.C34_isometry
#print axioms GConv.O3.C34_compatible
#print axioms GConv.O3.C34_det
#print axioms GConv.O3.C34_faithful
#print axioms GConv.O3.C34_surjective
#print axioms GConv.O3.C35_layout
#print axioms GConv.O3.C35_shipped
#print axioms GConv.O3.C35_one_rotation
#print axioms GConv.S2.C36_unit
#print axioms GConv.S2.C36_euclid_round_trip
#print axioms GConv.S2.C36_spherical_round_trip
#print axioms GConv.S2.C36_random
#print axioms GConv.S2.C37_z_axis_partial
#print axioms GConv.S2.C37_dispatch_partial
#print axioms GConv.S2.C37_violated
#print axioms GConv.Interp.C38_zero
#print axioms GConv.Interp.C38_even
#print axioms GConv.Interp.C38_decreasing
#print axioms GConv.Interp.C38_range
#print axioms GConv.Interp.C38_half_width
#print axioms GConv.Interp.C39_reproduces
#print axioms GConv.Interp.C39_linear
#print axioms GConv.Interp.C39_singular
#print axioms GConv.Interp.C39_value
#print axioms GConv.SO2.C39_so2
#print axioms GConv.SO2.C39_so2_value
#print axioms GConv.SO3.C39_so3
#print axioms GConv.SO3.C39_so3_value
#print axioms GConv.O2.C39_o2
#print axioms GConv.O3.C39_o3
#print axioms GConv.Interp.C40_nearest
#print axioms GConv.Interp.C40_empty
#print axioms GConv.Interp.C40_short
#print axioms GConv.SO2.C40_so2
#print axioms GConv.SO3.C40_so3
#print axioms GConv.O2.C40_o2
#print axioms GConv.O3.C40_o3
#print axioms GConv.SO2.C41_so2
#print axioms GConv.SO3.C41_so3
#print axioms GConv.O2.C41_o2
#print axioms GConv.O3.C41_o3
#print axioms GConv.SO2.C42_so2
#print axioms GConv.SO3.C42_so3
#print axioms GConv.O2.C42_o2
#print axioms GConv.O3.C42_o3
#print axioms GConv.Interp.C43_convex
#print axioms GConv.Interp.C43_barycentric
#print axioms GConv.Interp.C43_errors
#print axioms GConv.Repulsion.C44_in_place
#print axioms GConv.Repulsion.C44_copy
#print axioms GConv.Repulsion.C44_noise
#print axioms GConv.Repulsion.C45_positive
#print axioms GConv.Repulsion.C45_decreasing
#print axioms GConv.Repulsion.C45_value
#print axioms GConv.Functional.C46_R3
#print axioms GConv.Functional.C46_R2
#print axioms GConv.Functional.C46_reverse
#print axioms GConv.Functional.C46_size_one
#print axioms GConv.Functional.C46_moves_R3
#print axioms GConv.Functional.C46_moves_R2
#print axioms GConv.Functional.C47_R3
#print axioms GConv.Functional.C47_R2
#print axioms GConv.Functional.C47_odd
#print axioms GConv.Functional.C48_support_partial
#print axioms GConv.Functional.C48_violated
#print axioms GConv.Functional.C49_R3_partial
#print axioms GConv.Functional.C49_R2_transposed_partial
#print axioms GConv.Functional.C49_violated_bilinear
#print axioms GConv.Functional.C49_violated_R2
#print axioms GConv.GroupKernel.C50_lifting
#print axioms GConv.KernelSE2.C50_SE2
#print axioms GConv.KernelSE3.C50_SE3
#print axioms GConv.KernelE2.C50_E2
#print axioms GConv.KernelE3.C50_E3
#print axioms GConv.GroupKernel.C51_group
#print axioms GConv.KernelSE2.C51_SE2
#print axioms GConv.KernelSE3.C51_SE3
#print axioms GConv.KernelE2.C51_E2
#print axioms GConv.KernelE3.C51_E3
#print axioms GConv.GroupKernel.C52_subgroup_partial
#print axioms GConv.GroupKernel.C52_separable_partial
#print axioms GConv.GroupKernel.C52_violated_shape
#print axioms GConv.KernelSO3.C52_SO3_partial
#print axioms GConv.KernelSE2.C52_SE2_partial
#print axioms GConv.KernelSE3.C52_SE3_partial
#print axioms GConv.KernelE2.C52_E2_partial
#print axioms GConv.KernelE3.C52_E3_partial
#print axioms GConv.GroupKernel.C53_bijective
#print axioms GConv.GroupKernel.C53_not_identity
#print axioms GConv.C54_SE3_partial
#print axioms GConv.C54_E2_partial
#print axioms GConv.C54_E3_partial
#print axioms GConv.C54_SE2_violated
#print axioms GConv.C55_SE3_partial
#print axioms GConv.C55_given
#print axioms GConv.C55_SE2_violated
#print axioms GConv.C55_E2_violated
#print axioms GConv.C55_E2_violated_concrete
#print axioms GConv.C55_E3_violated
#print axioms GConv.C55_E3_violated_concrete
#print axioms GConv.KernelSO3.C55_SO3_grid
#print axioms GConv.KernelSO3.C55_SO3
#print axioms GConv.KernelSO3.C55_SO3_given_width
#print axioms GConv.KernelSO3.C56_SO3
#print axioms GConv.KernelSE2.C56_SE2
#print axioms GConv.KernelSE3.C56_SE3
#print axioms GConv.KernelE2.C56_E2
#print axioms GConv.KernelE3.C56_E3
#print axioms GConv.KernelSE2.C57_SE2
#print axioms GConv.KernelSE3.C57_SE3
#print axioms GConv.KernelE2.C57_E2
#print axioms GConv.KernelE3.C57_E3
#print axioms GConv.Conv.C58_rejects
#print axioms GConv.Conv.C58_accepts
#print axioms GConv.Conv.C58_layer
#print axioms GConv.Conv.C58_integer_stride
#print axioms GConv.Conv.C59_same_pairs
#print axioms GConv.Conv.C59_same_size
#print axioms GConv.Conv.C59_same_geometry
#print axioms GConv.Conv.C60_lifting
#print axioms GConv.Conv.C60_SE2
#print axioms GConv.Conv.C60_SE3
#print axioms GConv.Conv.C60_E2
#print axioms GConv.Conv.C60_E3
#print axioms GConv.Conv.C60_geometry_2d
#print axioms GConv.Conv.C60_geometry_3d
#print axioms GConv.Conv.C60_geometry_SE2
#print axioms GConv.Conv.C60_geometry_E2
#print axioms GConv.Conv.C60_geometry_SE3
#print axioms GConv.Conv.C60_geometry_E3
#print axioms GConv.Conv.C60_padding
#print axioms GConv.Conv.C60_SE3_one
#print axioms GConv.Conv.C61_group
#print axioms GConv.Conv.C61_subgroup
#print axioms GConv.Conv.C61_SE2
#print axioms GConv.Conv.C61_SE3
#print axioms GConv.Conv.C61_E2
#print axioms GConv.Conv.C61_E3
#print axioms GConv.Conv.C61_geometry_int
#print axioms GConv.Conv.C62_formula_partial
#print axioms GConv.Conv.C62_once_partial
#print axioms GConv.Conv.C62_extents_partial
#print axioms GConv.Conv.C62_SE2_partial
#print axioms GConv.Conv.C62_SE3_partial
#print axioms GConv.Conv.C62_E2_partial
#print axioms GConv.Conv.C62_E3_partial
#print axioms GConv.Conv.C62_violated_padding
#print axioms GConv.Conv.C62_violated_stride
#print axioms GConv.Conv.C63_lifting
#print axioms GConv.Conv.C63_group
#print axioms GConv.Conv.C63_lifting_circular
#print axioms GConv.Conv.C63_group_circular
#print axioms GConv.Conv.C64_SE2
#print axioms GConv.Conv.C64_SE3
#print axioms GConv.Conv.C65_SE2
#print axioms GConv.Conv.C65_SE2_separable
#print axioms GConv.Conv.C65_SE3
#print axioms GConv.Conv.C65_SE3_separable
#print axioms GConv.Conv.C66_E2_partial
#print axioms GConv.Conv.C66_E2_group_partial
#print axioms GConv.Conv.C66_E2_separable_partial
#print axioms GConv.Conv.C66_E3_partial
#print axioms GConv.Conv.C66_E3_group_partial
#print axioms GConv.Conv.C66_E3_separable_partial
#print axioms GConv.Conv.C66_violated
#print axioms GConv.Net.C67_SE2_lifting
#print axioms GConv.Net.C67_SE3_lifting
#print axioms GConv.Net.C67_E2_lifting
#print axioms GConv.Net.C67_E3_lifting
#print axioms GConv.Pooling.C67_global
#print axioms GConv.Pooling.C67_group
#print axioms GConv.Pooling.C68_avg_global_partial
#print axioms GConv.Pooling.C68_avg_group_partial
#print axioms GConv.Pooling.C68_max_group_partial
#print axioms GConv.Pooling.C68_max_global_partial
#print axioms GConv.Pooling.C68_violated
#print axioms GConv.Pooling.C69_partial
#print axioms GConv.Pooling.C69_violated
#print axioms GConv.Normalization.C70_batch_output
#print axioms GConv.Normalization.C70_instance_output
#print axioms GConv.Normalization.C70_eval_output
#print axioms GConv.Normalization.C70_batch_statistics
#print axioms GConv.Normalization.C70_batch_eval
#print axioms GConv.Normalization.C70_batch_single
#print axioms GConv.Normalization.C70_instance_statistics
#print axioms GConv.Normalization.C70_instance_eval
#print axioms GConv.Normalization.C70_batch_reorder
#print axioms GConv.Normalization.C70_instance_reorder
#print axioms GConv.Activations.C71_relu_partial
#print axioms GConv.Activations.C71_leaky_partial
#print axioms GConv.Activations.C71_gelu_partial
#print axioms GConv.Activations.C71_pointwise_partial
#print axioms GConv.Activations.C71_violated
#print axioms GConv.Activations.C71_wrapped_function_partial
#print axioms GConv.Conv.C72_options_SE2
#print axioms GConv.Conv.C72_options_E2
#print axioms GConv.Conv.C72_options_SE3
#print axioms GConv.Conv.C72_options_E3
#print axioms GConv.Conv.C72_lifting
#print axioms GConv.Conv.C72_groupSE
#print axioms GConv.Conv.C72_separableSE
#print axioms GConv.Conv.C72_groupE
#print axioms GConv.Conv.C72_separableE
#print axioms GConv.Conv.C72_single
#print axioms GConv.Conv.C72_random_SE2
#print axioms GConv.Conv.C72_random_SE3
#print axioms GConv.Conv.C72_random_E2
#print axioms GConv.Conv.C72_random_E3
#print axioms GConv.Linear.C73_any_lifting
#print axioms GConv.Linear.C73_any_group
#print axioms GConv.Linear.C73_any_separable
#print axioms GConv.Linear.C73_any_module
#print axioms GConv.Conv.C73_lifting
#print axioms GConv.Conv.C73_group
#print axioms GConv.Conv.C73_separable
#print axioms GConv.Conv.C74_SE2_lifting
#print axioms GConv.Conv.C74_SE2_group
#print axioms GConv.Conv.C74_SE2_separable
#print axioms GConv.Conv.C74_SE3_lifting
#print axioms GConv.Conv.C74_SE3_group
#print axioms GConv.Conv.C74_SE3_separable
#print axioms GConv.Conv.C74_E2_lifting
#print axioms GConv.Conv.C74_E2_group
#print axioms GConv.Conv.C74_E2_separable
#print axioms GConv.Conv.C74_E3_lifting
#print axioms GConv.Conv.C74_E3_group
#print axioms GConv.Conv.C74_E3_separable
#print axioms GConv.Net.C75_SE2
#print axioms GConv.Net.C75_SE2_invariant
#print axioms GConv.Net.C75_SE3
#print axioms GConv.Net.C75_SE3_invariant
#print axioms GConv.Net.C75_E2
#print axioms GConv.Net.C75_E2_invariant
#print axioms GConv.Net.C75_E3
#print axioms GConv.Net.C75_E3_invariant
#print axioms GConv.Net.C75_uniform_closed
#print axioms GConv.Net.C75_draw_SE2
#print axioms GConv.Net.C75_draw_SE3
#print axioms GConv.Normalization.C76_cumulative
#print axioms GConv.Normalization.C76_exponential
#print axioms GConv.Normalization.C77_layer
#print axioms GConv.Normalization.C77_rejects
#print axioms GConv.Normalization.C77_reorder
#print axioms GConv.SO2.C78_so2
#print axioms GConv.SO2.C78_so2_arc
#print axioms GConv.O2.C78_o2
#print axioms GConv.SO3.C78_quat
#print axioms GConv.SO3.C78_matrix
#print axioms GConv.SO3.C78_nonzero
#print axioms GConv.O3.C78_o3
#print axioms GConv.S2.C78_s2
#print axioms GConv.Conv.C78_permute_SE2
#print axioms GConv.Conv.C78_permute_SE3
#print axioms GConv.Conv.C78_permute_E2
#print axioms GConv.Conv.C78_permute_E3
#print axioms GConv.Init.C79_lifting
#print axioms GConv.Init.C79_group
#print axioms GConv.Init.C79_subgroup
#print axioms GConv.Init.C79_separable
#print axioms GConv.Init.C79_scale_uniform
#print axioms GConv.Init.C79_scale_normal
#print axioms GConv.Linear.C80_lifting
#print axioms GConv.Linear.C80_group
#print axioms GConv.Linear.C80_subgroup
#print axioms GConv.Linear.C80_separable_H
#print axioms GConv.Linear.C80_separable_w
#print axioms GConv.Linear.C80_kernels_SE2
#print axioms GConv.Linear.C80_kernels_SE3
#print axioms GConv.Linear.C80_kernels_E2
#print axioms GConv.Linear.C80_kernels_E3
#print axioms GConv.Linear.C80_kernels_SO3
#print axioms GConv.Linear.C80_module
#print axioms GConv.Batch.C81_lifting
#print axioms GConv.Batch.C81_group
#print axioms GConv.Batch.C81_subgroup
#print axioms GConv.Batch.C81_separable
#print axioms GConv.Batch.C81_act
#print axioms GConv.Batch.C81_batch_norm_eval
#print axioms GConv.Batch.C81_instance_norm
#print axioms GConv.Batch.C81_layer_norm
#print axioms GConv.Batch.C81_avg_group
#print axioms GConv.Batch.C81_max_group
#print axioms GConv.Batch.C81_avg_global
#print axioms GConv.Batch.C81_max_global
#print axioms GConv.Batch.C81_spatial
#print axioms GConv.Batch.C81_network
#print axioms GConv.Batch.C81_classifier
#print axioms GConv.Batch.C81_modules
#print axioms GConv.Conv.C82_lifting
#print axioms GConv.Conv.C82_group
#print axioms GConv.Conv.C82_subgroup
#print axioms GConv.Conv.C82_separable
#print axioms GConv.Conv.C82_window
#print axioms GConv.Conv.C82_impulse
#print axioms GConv.S2.C83_s2_value
#print axioms GConv.S2.C83_s2_symm
#print axioms GConv.S2.C83_s2_invariant
#print axioms GConv.S2.C83_s2_self
#print axioms GConv.S2.C83_s2_range
#print axioms GConv.S2.C83_s2_triangle
#print axioms GConv.SO2.C83_so2_triangle
#print axioms GConv.SO3.C83_so3_triangle
#print axioms GConv.Repulsion.C84_pairs
#print axioms GConv.Repulsion.C84_order
#print axioms GConv.Repulsion.C84_isometry
#print axioms GConv.Repulsion.C84_spreading
#print axioms GConv.Repulsion.C84_s2
#print axioms GConv.Repulsion.C84_so3
#print axioms GConv.Repulsion.C84_so3_unit
#print axioms GConv.Memory.C85_parameters
#print axioms GConv.Memory.C85_load
#print axioms GConv.Memory.C85_private_partial
#print axioms GConv.Memory.C85_stable_partial
#print axioms GConv.Memory.C85_shared
#print axioms GConv.Memory.C85_violated
#print axioms GConv.C86_mismatch
#print axioms GConv.KernelSE2.C86_SE2
#print axioms GConv.KernelE2.C86_E2
#print axioms GConv.KernelSE3.C86_SE3_lifting
#print axioms GConv.KernelSE3.C86_SE3_width_partial
#print axioms GConv.KernelSE3.C86_SE3_shipped_partial
#print axioms GConv.KernelSE3.C86_SE3_width_kept
#print axioms GConv.KernelE3.C86_E3_lifting
#print axioms GConv.KernelE3.C86_E3_width_partial
#print axioms GConv.KernelE3.C86_E3_shipped_partial
#print axioms GConv.KernelSO3.C86_SO3_mismatch
#print axioms GConv.KernelSO3.C86_SO3_width_partial
#print axioms GConv.KernelSO3.C86_SO3_shipped_partial
#print axioms GConv.KernelSO3.C86_SO3_width_kept
#print axioms GConv.C86_SE3_violated
#print axioms GConv.KernelSO3.C87_SO3_partial
#print axioms GConv.KernelSO3.C87_violated_SO3
#print axioms GConv.C87_SE2_partial
#print axioms GConv.C87_SE3_partial
#print axioms GConv.C87_E2_partial
#print axioms GConv.C87_E3_partial
#print axioms GConv.C87_violated_SE3
#print axioms GConv.C87_violated_E3
#print axioms GConv.C88_SE2
#print axioms GConv.C88_SE3
#print axioms GConv.C88_E2
#print axioms GConv.C88_E3
#print axioms GConv.C88_SE2_default
#print axioms GConv.C88_SE3_default
#print axioms GConv.C88_E2_default
#print axioms GConv.C88_E3_default
#print axioms GConv.C89_SE2_partial
#print axioms GConv.C89_SE3_partial
#print axioms GConv.C89_violated_E2
#print axioms GConv.C89_violated_E3
#print axioms GConv.C90_SE2_partial
#print axioms GConv.C90_E2_partial
#print axioms GConv.C90_violated_E2
#print axioms GConv.C91_SE2
#print axioms GConv.C91_SE2_group
#print axioms GConv.C91_SE3
#print axioms GConv.C91_SE3_group
#print axioms GConv.C91_E2
#print axioms GConv.C91_E2_group
#print axioms GConv.C91_E3
#print axioms GConv.C91_E3_group
#print axioms GConv.C91_lifting_layer
#print axioms GConv.C91_group_layer
#print axioms GConv.C92_SE2_lifting
#print axioms GConv.C92_SE2
#print axioms GConv.C92_SE3_lifting
#print axioms GConv.C92_SE3
#print axioms GConv.C92_E2_lifting
#print axioms GConv.C92_E2
#print axioms GConv.C92_E3_lifting
#print axioms GConv.C92_E3
#print axioms GConv.C92_lifting_layer
#print axioms GConv.C92_group_layer
#print axioms GConv.Net.C93_SE2
#print axioms GConv.Net.C93_SE2_avg
#print axioms GConv.Net.C93_SE2_max
#print axioms GConv.Net.C93_SE3
#print axioms GConv.Net.C93_SE3_avg
#print axioms GConv.Net.C93_SE3_max
#print axioms GConv.Net.C93_E2
#print axioms GConv.Net.C93_E2_avg
#print axioms GConv.Net.C93_E2_max
#print axioms GConv.Net.C93_E3
#print axioms GConv.Net.C93_E3_avg
#print axioms GConv.Net.C93_E3_max
#print axioms GConv.Net.C93_value
#print axioms GConv.Net.C93_mean
#print axioms GConv.Torus.C94_group
#print axioms GConv.Torus.C94_lifting
#print axioms GConv.Torus.C94_batch_norm
#print axioms GConv.Torus.C94_instance_norm
#print axioms GConv.Torus.C94_avg_global
#print axioms GConv.Torus.C94_max_global
#print axioms GConv.Torus.C94_network
#print axioms GConv.Torus.C94_lifted_network
#print axioms GConv.Torus.C94_classifier
#print axioms GConv.Torus.C94_modules
#print axioms GConv.Crop.C95_lifting
#print axioms GConv.Crop.C95_group
#print axioms GConv.Crop.C95_subgroup
#print axioms GConv.Crop.C95_separable
#print axioms GConv.Crop.C95_act
#print axioms GConv.Crop.C95_batch_norm
#print axioms GConv.Crop.C95_instance_norm
#print axioms GConv.Crop.C95_network
#print axioms GConv.Crop.C95_lifted_network
#print axioms GConv.Crop.C95_modules
#print axioms GConv.Conv.C96_lifting_rejects
#print axioms GConv.Conv.C96_lifting
#print axioms GConv.Conv.C96_lifting_rank
#print axioms GConv.Conv.C96_violated_unbatched
#print axioms GConv.Conv.C96_group_entries
#print axioms GConv.Conv.C96_group_rejects
#print axioms GConv.Conv.C96_group_rereads
#print axioms GConv.Conv.C96_group_partial
#print axioms GConv.Conv.C96_violated_swapped
#print axioms GConv.Conv.C96_violated_rereads
#print axioms GConv.Conv.C96_violated_order
#print axioms GConv.Net.C97_SE2
#print axioms GConv.Net.C97_SE3
#print axioms GConv.Net.C97_E2
#print axioms GConv.Net.C97_E3
#print axioms GConv.Net.C97_distinct_SE2
#print axioms GConv.Net.C97_distinct_E2
#print axioms GConv.Net.C97_closed_E2
#print axioms GConv.Net.C97_klein
#print axioms GConv.Net.C97_tetrahedral
#print axioms GConv.Net.C97_SE2_uniform
#print axioms GConv.Net.C97_E2_uniform
#print axioms GConv.Net.C97_cyclic
#print axioms GConv.Conv.C98_prints
#print axioms GConv.Conv.C98_determines
#print axioms GConv.Conv.C98_public
#print axioms GConv.Conv.C98_integer_dilation
#print axioms GConv.GroupKernel.C98_mask
#print axioms GConv.Readme.C99_runs
#print axioms GConv.Readme.C99_readme
#print axioms GConv.Readme.C99_invariant
#print axioms GConv.Readme.C99_violated_deterministic
#print axioms GConv.Custom.C100_lifting
#print axioms GConv.Custom.C100_group
#print axioms GConv.Custom.C100_separable
#print axioms GConv.Tutorial.C101_ops_partial
#print axioms GConv.Tutorial.C101_sample_partial
#print axioms GConv.Tutorial.C101_violated_constant
#print axioms GConv.Tutorial.C101_violated_at_grid
#print axioms GConv.Tutorial.C101_violated_single
#print axioms GConv.Tutorial.C101_lifting_partial
#print axioms GConv.Tutorial.C101_separable_partial
#print axioms GConv.Tutorial.C101_program_partial
#print axioms GConv.Layout.C102_view
#print axioms GConv.Layout.C102_new
#print axioms GConv.Layout.C102_reshape
#print axioms GConv.Layout.C102_split
#print axioms GConv.Layout.C102_lifting_partial
#print axioms GConv.Layout.C102_group_partial
#print axioms GConv.Layout.C102_separable_partial
#print axioms GConv.Layout.C102_merge
#print axioms GConv.Layout.C102_batch_norm_partial
#print axioms GConv.Layout.C102_instance_norm_partial
#print axioms GConv.Layout.C102_norm_violated
#print axioms GConv.Layout.C102_rows
#print axioms GConv.Layout.C102_transposed_violated
#print axioms GConv.Layout.C102_channels_last_violated
#print axioms GConv.Stability.C103_lifting
#print axioms GConv.Stability.C103_group
#print axioms GConv.Stability.C103_subgroup
#print axioms GConv.Stability.C103_separable
#print axioms GConv.Stability.C103_act
#print axioms GConv.Stability.C103_batch_norm
#print axioms GConv.Stability.C103_batch_norm_eval
#print axioms GConv.Stability.C103_instance_norm
#print axioms GConv.Stability.C103_instance_norm_eval
#print axioms GConv.Stability.C103_layer_norm
#print axioms GConv.Stability.C103_avg_pool
#print axioms GConv.Stability.C103_max_pool
#print axioms GConv.Stability.C103_network
#print axioms GConv.Stability.C103_classifier
#print axioms GConv.Stability.C103_eps_needed
#print axioms GConv.C104_quat
#print axioms GConv.C104_matrix
#print axioms GConv.C104_degrees
#print axioms GConv.C105_SE2
#print axioms GConv.C105_SE3
#print axioms GConv.C105_E2
#print axioms GConv.C105_E3
#print axioms GConv.C106_lifting_2
#print axioms GConv.C106_group_2
#print axioms GConv.C106_separable_2
#print axioms GConv.C106_lifting_3
#print axioms GConv.C106_group_3
#print axioms GConv.C106_separable_3
#print axioms GConv.Conv.C107_lifting_SE2
#print axioms GConv.Conv.C107_group_SE2
#print axioms GConv.Conv.C107_separable_SE2
#print axioms GConv.Conv.C107_lifting_SE3
#print axioms GConv.Conv.C107_group_SE3
#print axioms GConv.Conv.C107_separable_SE3
#print axioms GConv.Conv.C107_lifting_E2
#print axioms GConv.Conv.C107_group_E2
#print axioms GConv.Conv.C107_separable_E2
#print axioms GConv.Conv.C107_lifting_E3
#print axioms GConv.Conv.C107_group_E3
#print axioms GConv.Conv.C107_separable_E3
#print axioms GConv.Conv.C107_tests_SE2
#print axioms GConv.Conv.C107_tests_SE3
#print axioms GConv.Conv.C107_tests_E2
#print axioms GConv.Conv.C107_tests_E3
#print axioms GConv.Blocks.C108_lifting
#print axioms GConv.Blocks.C108_group
#print axioms GConv.Blocks.C108_subgroup
#print axioms GConv.Blocks.C108_separable
#print axioms GConv.Blocks.C108_modules
#print axioms GConv.Blocks.C108_forward_lifting
#print axioms GConv.Blocks.C108_forward_groupSE
#print axioms GConv.Blocks.C108_forward_groupE
#print axioms GConv.Blocks.C108_forward_separableSE
#print axioms GConv.Blocks.C108_forward_separableE
#print axioms GConv.Conv.C109_group
#print axioms GConv.Conv.C109_SE2
#print axioms GConv.Conv.C109_SE3
#print axioms GConv.Conv.C109_E2
#print axioms GConv.Conv.C109_E3
#print axioms GConv.Net.C110_SE2
#print axioms GConv.Net.C110_SE3
#print axioms GConv.Net.C110_E2
#print axioms GConv.Net.C110_E3
#print axioms GConv.Net.C110_torus
#print axioms GConv.Branch.C111_SE2
#print axioms GConv.Branch.C111_SE2_invariant
#print axioms GConv.Branch.C111_SE3
#print axioms GConv.Branch.C111_SE3_invariant
#print axioms GConv.Branch.C111_E2
#print axioms GConv.Branch.C111_E2_invariant
#print axioms GConv.Branch.C111_E3
#print axioms GConv.Branch.C111_E3_invariant
#print axioms GConv.Conv.C112_fibres
#print axioms GConv.Conv.C112_SO3
#print axioms GConv.Conv.C113_SE2
#print axioms GConv.Conv.C113_E2
#print axioms GConv.Conv.C114_SE2
#print axioms GConv.Conv.C114_SE3
#print axioms GConv.Conv.C114_E2
#print axioms GConv.Conv.C114_E3
#print axioms GConv.Rounding.C115_lifting
#print axioms GConv.Rounding.C115_group
#print axioms GConv.Rounding.C115_SE2
#print axioms GConv.Rounding.C115_SE2_group
#print axioms GConv.Rounding.C115_SE3
#print axioms GConv.Rounding.C115_SE3_group
#print axioms GConv.Rounding.C115_exact
#print axioms GConv.Rounding.C115_exact_group
#print axioms GConv.Rounding.C115_E2
#print axioms GConv.Rounding.C115_E2_group
#print axioms GConv.Rounding.C115_E3
#print axioms GConv.Rounding.C115_E3_group
#print axioms GConv.Rounding.C116_network
#print axioms GConv.Rounding.C116_classifier
#print axioms GConv.Rounding.C116_SE2
#print axioms GConv.Rounding.C116_SE3
#print axioms GConv.Rounding.C116_E2
#print axioms GConv.Rounding.C116_E3
#print axioms GConv.Rounding.C116_group_step
#print axioms GConv.Rounding.C116_lifting_step
#print axioms GConv.Rounding.C116_exact
