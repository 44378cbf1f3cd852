{
 "claims": [
  {
   "property": "C01",
   "status": "proved",
   "theorems": [
    "E3x.C01_sparse_pairwise",
    "E3x.C01_sparse_pairwise_complete",
    "E3x.C01_dense_pairwise",
    "E3x.C01_pairwise_error"
   ],
   "note": "Closed form of the pairwise index lists for every number of nodes, plus the error branch."
  },
  {
   "property": "C02",
   "status": "proved",
   "theorems": [
    "E3x.C02_dense_to_sparse",
    "E3x.C02_dense_to_sparse_default",
    "E3x.C02_sparse_to_dense",
    "E3x.C02_sparse_to_dense_error",
    "E3x.C02_sparse_to_dense_default",
    "E3x.C02_sparse_to_dense_same_graph",
    "E3x.C02_round_trip",
    "E3x.C02_small_pad_loses_edges",
    "E3x.C02_default_pad_collides_with_source",
    "E3x.C02_dense_to_sparse_nd",
    "E3x.C02_sparse_to_dense_nd",
    "E3x.C02_sparse_to_dense_graph_nd",
    "E3x.C02_round_trip_nd",
    "E3x.C02_no_edges_no_rows",
    "E3x.C02_conversions_reject"
   ],
   "note": "Both conversions and the round trip for every rank and batch shape, row by row; small padding, default-padding collision and the loss of rows of an edgeless graph are shown by C02_small_pad_loses_edges, C02_default_pad_collides_with_source, C02_no_edges_no_rows."
  },
  {
   "property": "C03",
   "status": "proved",
   "theorems": [
    "E3x.C03_sum_after_conversion",
    "E3x.C03_sum_dense",
    "E3x.C03_sum_sparse",
    "E3x.C03_max_min_dense",
    "E3x.C03_max_min_sparse",
    "E3x.C03_formats_sum",
    "E3x.C03_formats_max_min",
    "E3x.C03_keepdims_sparse",
    "E3x.C03_reduce_rejects",
    "E3x.C03_dense_eq_sparse",
    "E3x.C03_edge_order",
    "E3x.C03_sparse_padding",
    "E3x.C03_dense_padding",
    "E3x.C03_segment_sum",
    "E3x.C03_segment_max",
    "E3x.C03_segment_min",
    "E3x.C03_max_dense_eq_sparse",
    "E3x.C03_isolated_node_differs"
   ],
   "note": "Dense = sparse, padding and order independence for every operation, at the level of one batch entry and of arrays of any rank; C03_sum_after_conversion chains the conversion with the reduction. For nodes without an edge (excluded in the statement) C03_isolated_node_differs shows that max/min differ between the formats."
  },
  {
   "property": "C04",
   "status": "proved",
   "theorems": [
    "E3x.C04_softmax_dense_nd",
    "E3x.C04_softmax_sparse_nd",
    "E3x.C04_softmax_rejects",
    "E3x.C04_sparse",
    "E3x.C04_dense",
    "E3x.C04_sparse_normalised",
    "E3x.C04_dense_normalised",
    "E3x.C04_sparse_shift",
    "E3x.C04_dense_eq_sparse",
    "E3x.C04_padding_not_zero",
    "E3x.C04_check"
   ],
   "note": "Closed form of both branches (one batch entry and arrays of any rank), hence normalisation, bounds, shift invariance, locality and agreement of formats. C04_padding_not_zero records that masked dense entries are not zeroed."
  },
  {
   "property": "C05",
   "status": "proved",
   "theorems": [
    "E3x.C05_index_type",
    "E3x.C05_index_type_error",
    "E3x.C05_reduce",
    "E3x.C05_reduce_type_error"
   ],
   "note": "Acceptance characterised exactly, with the error classes."
  },
  {
   "property": "C06",
   "status": "proved",
   "theorems": [
    "E3x.C06_is_broadcastable",
    "E3x.C06_symm_refl"
   ],
   "note": "Equivalence with the existence of a common broadcast shape; symmetry and reflexivity."
  },
  {
   "property": "C07",
   "status": "proved",
   "theorems": [
    "E3x.C07_shape_check",
    "E3x.C07_error",
    "E3x.C07_zero_size_accepted",
    "E3x.C07_rounding"
   ],
   "note": "Exact acceptance condition, returned degree and error branch; C07_zero_size_accepted records that a degree axis of size zero is accepted with max degree -1."
  },
  {
   "property": "C08",
   "status": "proved",
   "theorems": [
    "E3x.C08_change",
    "E3x.C08_round_trip",
    "E3x.C08_idempotent",
    "E3x.C08_default",
    "E3x.C08_reflect",
    "E3x.C08_rotate"
   ],
   "note": "Every component of the result is characterised; round trip, idempotence, compatibility with rotations and reflections are derived."
  },
  {
   "property": "C09",
   "status": "proved",
   "theorems": [
    "E3x.C09_add",
    "E3x.C09_add_error",
    "E3x.C09_add_comm",
    "E3x.C09_add_assoc",
    "E3x.C09_add_reflect",
    "E3x.C09_add_rotate"
   ],
   "note": "Component-wise sum for any number of inputs, error branch, commutativity, associativity, equivariance."
  },
  {
   "property": "C10",
   "status": "proved",
   "theorems": [
    "E3x.C10_reflect",
    "E3x.C10_reflect_involutive",
    "E3x.C10_rotate",
    "E3x.C10_rotate_rotate",
    "E3x.C10_rotate_one",
    "E3x.C10_rotate_linear",
    "E3x.C10_rotate_reflect"
   ],
   "note": "Block-diagonal matrices; the identity and products are those of the matrices."
  },
  {
   "property": "C11",
   "status": "proved",
   "theorems": [
    "E3x.C11_masks"
   ],
   "note": ""
  },
  {
   "property": "C12",
   "status": "proved",
   "theorems": [
    "E3x.C12_dense",
    "E3x.C12_dense_reflect",
    "E3x.C12_dense_rotate",
    "E3x.C12_dense_linear"
   ],
   "note": "For every block-diagonal matrix that is trivial on scalars; Wigner-D matrices are such matrices."
  },
  {
   "property": "C13",
   "status": "proved",
   "theorems": [
    "E3x.C13_relu",
    "E3x.C13_leaky_relu",
    "E3x.C13_elu",
    "E3x.C13_selu",
    "E3x.C13_celu",
    "E3x.C13_silu",
    "E3x.C13_gelu",
    "E3x.C13_mish",
    "E3x.C13_serf",
    "E3x.C13_shifted_softplus",
    "E3x.C13_hard_tanh",
    "E3x.C13_soft_sign",
    "E3x.C13_relu6",
    "E3x.C13_hard_silu",
    "E3x.C13_bent_identity",
    "E3x.C13_gated",
    "E3x.C13_gated_reflect",
    "E3x.C13_gated_rotate",
    "E3x.C13_gated_zero"
   ],
   "note": "All gates and all activations; Taylor branches with explicit error bounds"
  },
  {
   "property": "C14",
   "status": "proved",
   "theorems": [
    "E3x.C14_tensor_rotate"
   ],
   "note": "For every matrix with the properties IsRotation; that Wigner-D matrices have them is C27/C28/C30"
  },
  {
   "property": "C15",
   "status": "proved",
   "theorems": [
    "E3x.C15_tensor",
    "E3x.C15_tensor_error",
    "E3x.C15_tensor_reflect"
   ],
   "note": "Meaning, errors, output type, reflections"
  },
  {
   "property": "C16",
   "status": "proved",
   "theorems": [
    "E3x.C16_fused",
    "E3x.C16_fused_error",
    "E3x.C16_fused_reflect",
    "E3x.C16_fused_rotate"
   ],
   "note": "Meaning, errors, rotations, reflections"
  },
  {
   "property": "C17",
   "status": "proved",
   "theorems": [
    "E3x.C17_tensor_dense_rotate",
    "E3x.C17_tensor_dense_reflect",
    "E3x.C17_tensor_dense_ok"
   ],
   "note": "Both tensor implementations"
  },
  {
   "property": "C18",
   "status": "proved",
   "theorems": [
    "E3x.C18_message_pass",
    "E3x.C18_sparse",
    "E3x.C18_dense",
    "E3x.C18_edge_order",
    "E3x.C18_dense_eq_sparse",
    "E3x.C18_relabel",
    "E3x.C18_weights"
   ],
   "note": "equivariance, meaning in both formats, weights, edge order, format independence, relabelling"
  },
  {
   "property": "C19",
   "status": "proved",
   "theorems": [
    "E3x.C19_attention",
    "E3x.C19_weights_invariant",
    "E3x.C19_sparse",
    "E3x.C19_dense",
    "E3x.C19_normalised",
    "E3x.C19_edge_order",
    "E3x.C19_dense_eq_sparse",
    "E3x.C19_relabel",
    "E3x.C19_self_sparse",
    "E3x.C19_self_dense",
    "E3x.C19_self_equivariant",
    "E3x.C19_missing_basis",
    "E3x.C19_logit"
   ],
   "note": "Equivariance, meaning in both formats, normalisation, edge order, renumbering; C19_logit says what the dot products are without using the helpers of the model. 0/0 is read as 0 here; C58 says at which nodes it occurs."
  },
  {
   "property": "C20",
   "status": "proved",
   "theorems": [
    "E3x.C20_cartesian_order",
    "E3x.C20_permutation_degree",
    "E3x.C20_blocks",
    "E3x.C20_permutation",
    "E3x.C20_preserves_degree",
    "E3x.C20_degree_one",
    "E3x.C20_wigner_d_entries"
   ],
   "note": ""
  },
  {
   "property": "C21",
   "status": "proved",
   "theorems": [
    "E3x.C21_permutations",
    "E3x.C21_multicombinations",
    "E3x.C21_monomial_powers",
    "E3x.C21_rotation_powers",
    "E3x.C21_totals",
    "E3x.C21_integer_powers"
   ],
   "note": "more_itertools.distinct_permutations is modelled by its documented result (distinct permutations in lexicographic order)"
  },
  {
   "property": "C22",
   "status": "proved",
   "theorems": [
    "E3x.C22_rotation",
    "E3x.C22_rodrigues",
    "E3x.C22_compose",
    "E3x.C22_direction",
    "E3x.C22_zero_axis"
   ],
   "note": "Rodrigues' formula, proper rotation, fixed axis, trace, composition, periodicity, scale invariance for all axes with squared length above tiny; the zero axis gives cos^2(angle/2) I."
  },
  {
   "property": "C23",
   "status": "proved",
   "theorems": [
    "E3x.C23_rotation_euler",
    "E3x.C23_matrix_roundtrip",
    "E3x.C23_angles_roundtrip",
    "E3x.C23_near_gimbal"
   ],
   "note": "rotation_euler is Rx Ry Rz; round trips from the matrix and from the angles; between the numerical threshold and exact gimbal lock only an error bound of order sqrt(epsneg) holds (C23_near_gimbal)."
  },
  {
   "property": "C24",
   "status": "proved",
   "theorems": [
    "E3x.C24_alignment",
    "E3x.C24_antiparallel",
    "E3x.C24_antiparallel_111",
    "E3x.C24_fails"
   ],
   "note": "All pairs, batched; the antiparallel branch needs the cross product with the cyclic shift to be non-negligible; C24_antiparallel_111/C24_fails prove the exception (zero matrix)."
  },
  {
   "property": "C25",
   "status": "proved",
   "theorems": [
    "E3x.C25_random_rotation",
    "E3x.C25_extremes",
    "E3x.C25_small_angle"
   ],
   "note": "Axis independent of the strength, angle proportional to it; extremes; in the small-angle branch only up to 1e-17."
  },
  {
   "property": "C26",
   "status": "proved",
   "theorems": [
    "E3x.C26_harmonic_polynomials",
    "E3x.C26_parity",
    "E3x.C26_sum_of_squares",
    "E3x.C26_coordinates",
    "E3x.C26_validation"
   ],
   "note": "All degrees; harmonic polynomials, parity, Racah normalisation, coordinates."
  },
  {
   "property": "C27",
   "status": "proved",
   "theorems": [
    "E3x.C27_rotation"
   ],
   "note": "All orthogonal matrices, all degrees, both orderings."
  },
  {
   "property": "C28",
   "status": "proved",
   "theorems": [
    "E3x.C28_identity",
    "E3x.C28_product",
    "E3x.C28_inverse",
    "E3x.C28_block_diagonal",
    "E3x.C28_degree_one",
    "E3x.C28_validation",
    "E3x.C28_isRotation"
   ],
   "note": "Includes the link to Spec.IsRotation used by the layer theorems."
  },
  {
   "property": "C29",
   "status": "proved",
   "theorems": [
    "E3x.C29_triangle",
    "E3x.C29_orders",
    "E3x.C29_complete",
    "E3x.C29_real",
    "E3x.C29_for_degrees",
    "E3x.C29_validation"
   ],
   "note": "All degrees and orders."
  },
  {
   "property": "C30",
   "status": "proved",
   "theorems": [
    "E3x.C30_improper",
    "E3x.C30_coupling"
   ],
   "note": "Also the sign for improper rotations."
  },
  {
   "property": "C31",
   "status": "proved",
   "theorems": [
    "E3x.C31_matrices",
    "E3x.C31_roundtrip",
    "E3x.C31_traceless_symmetric",
    "E3x.C31_inverse",
    "E3x.C31_compression",
    "E3x.C31_equivariant",
    "E3x.C31_equivariant_irreps",
    "E3x.C31_harmonics",
    "E3x.C31_validation"
   ],
   "note": "matrices, round trip both ways, symmetry and tracelessness, compression, rotations both ways, meaning for spherical harmonics, validation"
  },
  {
   "property": "C32",
   "status": "proved",
   "theorems": [
    "E3x.C32_tolerance",
    "E3x.C32_exact",
    "E3x.C32_conversion",
    "E3x.C32_validation"
   ],
   "note": "zero tolerance, general tolerances, results of conversions, validation"
  },
  {
   "property": "C33",
   "status": "proved",
   "theorems": [
    "E3x.C33_damaged_package",
    "E3x.C33_clebsch_gordan",
    "E3x.C33_spherical_harmonics",
    "E3x.C33_wigner_d",
    "E3x.C33_tensor_conversion",
    "E3x.C33_from_scratch"
   ],
   "note": "all four generators, every history incl. crashes before/after a save, path changes, removals; symbolic values are arguments (well-formedness of sympy terms assumed for the polynomials)"
  },
  {
   "property": "C34",
   "status": "proved",
   "theorems": [
    "E3x.C34_clebsch_gordan",
    "E3x.C34_spherical_harmonics",
    "E3x.C34_wigner_d",
    "E3x.C34_wigner_d_tables",
    "E3x.C34_tensor_conversion"
   ],
   "note": "all tables, all four kinds, with slicing to a smaller degree; for Wigner-D tables the archive stores diagonal blocks only, and every generated table is block diagonal"
  },
  {
   "property": "C35",
   "status": "partial",
   "theorems": [
    "E3x.C35_write_error_tolerated",
    "E3x.C35_crash_partial",
    "E3x.C35_crash_without_cache",
    "E3x.C35_incomplete_file",
    "E3x.C35_fails",
    "E3x.C35_recovery"
   ],
   "note": "the claim is false for a configured path (C35_fails: incomplete file makes every later request raise); proved: failing writes are tolerated, crashes before truncation or after completion are harmless, recovery by removing the file"
  },
  {
   "property": "C36",
   "status": "partial",
   "theorems": [
    "E3x.C36_attributes",
    "E3x.C36_invalid_normalization",
    "E3x.C36_normalization_valid",
    "E3x.C36_caches_partial",
    "E3x.C36_defaults_frozen",
    "E3x.C36_setters_ineffective_partial"
   ],
   "note": "Attributes after any history, invalid normalisation, validity, cache paths: proved. The first clause is false for the three settings bound at import: C36_defaults_frozen proves that no setter history changes them, C36_setters_ineffective_partial gives the witness."
  },
  {
   "property": "C37",
   "status": "proved",
   "theorems": [
    "E3x.C37_precision",
    "E3x.C37_num",
    "E3x.C37_load",
    "E3x.C37_shipped_tables"
   ],
   "note": "For all strictly increasing non-negative tables; the four shipped tables meet the hypotheses (C37_shipped_tables)."
  },
  {
   "property": "C38",
   "status": "proved",
   "theorems": [
    "E3x.C38_multiplicities",
    "E3x.C38_assembly",
    "E3x.C38_coverage",
    "E3x.C38_pipeline",
    "E3x.C38_too_few",
    "E3x.C38_too_few_type_error",
    "E3x.C38_validation"
   ],
   "note": "Assembly, coverage, consumption, validation and rejection. C38_too_few_type_error: with too few irreps the code may raise TypeError instead of ValueError."
  },
  {
   "property": "C39",
   "status": "proved",
   "theorems": [
    "E3x.C39_equivariant",
    "E3x.C39_block_rotation",
    "E3x.C39_combine",
    "E3x.C39_traces_meaning",
    "E3x.C39_traces_shift",
    "E3x.C39_traces_invariant"
   ],
   "note": "Proper rotations; with and without shift_by_id; combine_irreps equivariance; meaning, shift and invariance of traces."
  },
  {
   "property": "C40",
   "status": "proved",
   "theorems": [
    "E3x.C40_fans",
    "E3x.C40_fans_validation",
    "E3x.C40_variance_scaling",
    "E3x.C40_variance_scaling_validation",
    "E3x.C40_named",
    "E3x.C40_fused_init",
    "E3x.C40_mask",
    "E3x.C40_duplication"
   ],
   "note": "Fans, masks, duplication, initial values (real dtypes) and validation."
  },
  {
   "property": "C41",
   "status": "proved",
   "theorems": [
    "E3x.C41_norm",
    "E3x.C41_norm_jvp",
    "E3x.C41_normalize"
   ],
   "note": "Exact for every non-empty array; empty arrays raise."
  },
  {
   "property": "C42",
   "status": "proved",
   "theorems": [
    "E3x.C42_meaning",
    "E3x.C42_default_angular",
    "E3x.C42_equivariant",
    "E3x.C42_inversion",
    "E3x.C42_cutoff",
    "E3x.C42_validation",
    "E3x.C42_exponential_basis"
   ],
   "note": "all radial, angular, cutoff and damping functions; equivariance for the default angular function (spherical harmonics)"
  },
  {
   "property": "C43",
   "status": "proved",
   "theorems": [
    "E3x.C43_smooth_cutoff",
    "E3x.C43_cosine_cutoff",
    "E3x.C43_cutoff_raises",
    "E3x.C43_smooth_cutoff_derivatives",
    "E3x.C43_cosine_cutoff_derivative"
   ],
   "note": "Value range, value at zero, antitonicity, vanishing beyond the cutoff, positivity below, C-infinity (smooth) / continuity (cosine), closed forms, exact error condition."
  },
  {
   "property": "C44",
   "status": "proved",
   "theorems": [
    "E3x.C44_smooth_switch_limit",
    "E3x.C44_smooth_switch",
    "E3x.C44_smooth_switch_error",
    "E3x.C44_smooth_switch_jvp",
    "E3x.C44_smooth_switch_raises",
    "E3x.C44_smooth_window",
    "E3x.C44_triangular_window",
    "E3x.C44_triangular_window_shape",
    "E3x.C44_rectangular_window"
   ],
   "note": "Switch: boundary values, range, monotone, symmetry, closed form, error bound of the masked slivers, coded derivative, exact error condition. Windows: partitions of unity; rectangular windows characterised exactly."
  },
  {
   "property": "C45",
   "status": "proved",
   "theorems": [
    "E3x.C45_values",
    "E3x.C45_ends",
    "E3x.C45_partition",
    "E3x.C45_raises",
    "E3x.C45_jvp",
    "E3x.C45_jvp_outside_nonzero",
    "E3x.C45_public"
   ],
   "note": "Values, end values, partition of unity, coded derivative inside; C45_jvp_outside_nonzero documents that the coded derivative is wrong beyond the interval, which the property does not claim."
  },
  {
   "property": "C46",
   "status": "proved",
   "theorems": [
    "E3x.C46_reciprocal_mapping",
    "E3x.C46_reciprocal_values",
    "E3x.C46_reciprocal_raises",
    "E3x.C46_reciprocal_error",
    "E3x.C46_exponential_mapping"
   ],
   "note": "All kinds; Taylor branch included with its error bound."
  },
  {
   "property": "C47",
   "status": "proved",
   "theorems": [
    "E3x.C47_chebyshev",
    "E3x.C47_chebyshev_ends",
    "E3x.C47_chebyshev_bounded",
    "E3x.C47_chebyshev_unbounded",
    "E3x.C47_basic_chebyshev",
    "E3x.C47_fourier",
    "E3x.C47_gaussian",
    "E3x.C47_raises",
    "E3x.C47_mapped"
   ],
   "note": "Boundedness of the Chebyshev Taylor branch needs (num-1)^2*eps <= 6; C47_chebyshev_unbounded shows that without it the clause is false."
  },
  {
   "property": "C48",
   "status": "proved",
   "theorems": [
    "E3x.C48_network",
    "E3x.C48_invariant"
   ],
   "note": "Straight-line programs over all layers; induction on the program."
  },
  {
   "property": "C49",
   "status": "proved",
   "theorems": [
    "E3x.C49_constants",
    "E3x.C49_invalid_name",
    "E3x.C49_equivariance"
   ],
   "note": "All names and degrees."
  },
  {
   "property": "C50",
   "status": "proved",
   "theorems": [
    "E3x.C50_direction",
    "E3x.C50_short_vectors",
    "E3x.C50_solid_harmonics",
    "E3x.C50_zero_vector"
   ],
   "note": "Scale invariance above the normalisation threshold, solid harmonics, zero vector; C50_short_vectors shows that shorter vectors are not normalised."
  },
  {
   "property": "C51",
   "status": "proved",
   "theorems": [
    "E3x.C51_smooth_damping",
    "E3x.C51_smooth_damping_derivatives"
   ],
   "note": ""
  },
  {
   "property": "C52",
   "status": "proved",
   "theorems": [
    "E3x.C52_sinc"
   ],
   "note": ""
  },
  {
   "property": "C53",
   "status": "proved",
   "theorems": [
    "E3x.C53_evaluate_derivatives"
   ],
   "note": "jax.jvp with tangent one is modelled as the derivative of a function of one real variable"
  },
  {
   "property": "C54",
   "status": "proved",
   "theorems": [
    "E3x.C54_gather_src_dense",
    "E3x.C54_gather_src_sparse",
    "E3x.C54_gather_dst_sparse",
    "E3x.C54_gather_dst_dense",
    "E3x.C54_gather_src_dense_rejects",
    "E3x.C54_gather_src_sparse_rejects",
    "E3x.C54_gather_formats"
   ],
   "note": "Entry-by-entry meaning in both formats for every rank, error branches, agreement of the formats. Reshaping an array with trailing size 0 is treated as an error (simplification)."
  },
  {
   "property": "C55",
   "status": "proved",
   "theorems": [
    "E3x.C55_orthonormal",
    "E3x.C55_complete",
    "E3x.C55_recover",
    "E3x.C55_truncation_loses"
   ],
   "note": ""
  },
  {
   "property": "C56",
   "status": "proved",
   "theorems": [
    "E3x.C56_orthogonality",
    "E3x.C56_addition"
   ],
   "note": "Orthogonality with the documented constants for all four normalisations, as exact surface integrals; addition theorem with Legendre polynomials."
  },
  {
   "property": "C57",
   "status": "proved",
   "theorems": [
    "E3x.C57_cutoff_finite",
    "E3x.C57_switch_damping_window_finite",
    "E3x.C57_mapping_finite",
    "E3x.C57_basic_radial_finite",
    "E3x.C57_mapped_radial_finite",
    "E3x.C57_activation_finite",
    "E3x.C57_smooth_cutoff_exact",
    "E3x.C57_cosine_cutoff_exact",
    "E3x.C57_smooth_damping_exact",
    "E3x.C57_smooth_switch_exact",
    "E3x.C57_mapping_exact",
    "E3x.C57_radial_exact",
    "E3x.C57_activation_exact",
    "E3x.C57_norm_finite",
    "E3x.C57_norm_exact",
    "E3x.C57_harmonics",
    "E3x.C57_radial_finite",
    "E3x.C57_radial_consistent",
    "E3x.C57_basis",
    "E3x.C57_naive_gradients_not_finite",
    "E3x.C57_zero_vector_second_derivative_inexact"
   ],
   "note": "differentiation rules of JAX primitives are modelled (Model/Autodiff.lean); inexact second derivatives at the zero vector are shown in C57_zero_vector_second_derivative_inexact"
  },
  {
   "property": "C58",
   "status": "proved",
   "theorems": [
    "E3x.C58_sparse",
    "E3x.C58_dense"
   ],
   "note": "NaN exactly if edges end in the node and all have cutoff zero; both formats."
  },
  {
   "property": "C59",
   "status": "proved",
   "theorems": [
    "E3x.C59_message_pass",
    "E3x.C59_message_pass_dense",
    "E3x.C59_attention",
    "E3x.C59_attention_dense",
    "E3x.C59_network",
    "E3x.C59_cutoff",
    "E3x.C59_cutoff_attention"
   ],
   "note": "Message passing and attention in both formats, whole networks, and basis functions with a cutoff radius."
  },
  {
   "property": "C60",
   "status": "proved",
   "theorems": [
    "E3x.C60_message_pass",
    "E3x.C60_attention",
    "E3x.C60_network",
    "E3x.C60_message_pass_dense"
   ],
   "note": "Two structures, sparse format (message passing also dense); the first edge list without padding."
  },
  {
   "property": "C61",
   "status": "proved",
   "theorems": [
    "E3x.C61_message_pass",
    "E3x.C61_attention",
    "E3x.C61_attention_nan",
    "E3x.C61_network"
   ],
   "note": "covering maps: message passing, attention incl. NaN rows, networks; example: ring of any size covers the unit cell"
  },
  {
   "property": "C62",
   "status": "proved",
   "theorems": [
    "E3x.C62_translation",
    "E3x.C62_rotation",
    "E3x.C62_covering",
    "E3x.C62_cutoff",
    "E3x.C62_extensive",
    "E3x.C62_batch",
    "E3x.C62_md17"
   ],
   "note": "translations, rotations/reflections, coverings (renumbering, supercells, batches), cutoff radius; md17 example total"
  },
  {
   "property": "C63",
   "status": "proved",
   "theorems": [
    "E3x.C63_smooth",
    "E3x.C63_md17",
    "E3x.C63_activations",
    "E3x.C63_jumps"
   ],
   "note": "for exact real arithmetic; thresholds of _bernstein are excluded in the example"
  },
  {
   "property": "C64",
   "status": "proved",
   "theorems": [
    "E3x.C64_gradient",
    "E3x.C64_conservation",
    "E3x.C64_translation",
    "E3x.C64_rotation",
    "E3x.C64_net_force",
    "E3x.C64_torque",
    "E3x.C64_local",
    "E3x.C64_renumber",
    "E3x.C64_batch",
    "E3x.C64_smooth",
    "E3x.C64_md17"
   ],
   "note": "energyAndForces models __call__ of the md17 example for all models of its form; the gradient is the mathematical derivative of the model of the energy, and all statements about forces are for points where the energy is differentiable (C64_smooth, C64_md17 say where)."
  },
  {
   "property": "C65",
   "status": "proved",
   "theorems": [
    "E3x.C65_datasets",
    "E3x.C65_running_mean",
    "E3x.C65_epoch_error",
    "E3x.C65_batches",
    "E3x.C65_predictions",
    "E3x.C65_losses",
    "E3x.C65_validation",
    "E3x.C65_too_few"
   ],
   "note": "random choices and permutations are arguments; the optimizer step is an arbitrary function"
  },
  {
   "property": "C66",
   "status": "proved",
   "theorems": [
    "E3x.C66_target",
    "E3x.C66_exists",
    "E3x.C66_rotation",
    "E3x.C66_permutation",
    "E3x.C66_additive",
    "E3x.C66_symmetric",
    "E3x.C66_exact"
   ],
   "note": "Target, existence, equivariance, order, additivity, symmetry and expressiveness of the moment of inertia example; expressiveness with the default Tensor layers"
  },
  {
   "property": "C67",
   "status": "proved",
   "theorems": [
    "E3x.C67_separates",
    "E3x.C67_exists",
    "E3x.C67_invariance",
    "E3x.C67_reflection",
    "E3x.C67_mirror",
    "E3x.C67_screws",
    "E3x.C67_seven_eighths",
    "E3x.C67_eval",
    "E3x.C67_first_layer",
    "E3x.C67_ordinary_shift",
    "E3x.C67_ordinary_rotation"
   ],
   "note": "gradients and the optimizer (train_step) are not modelled; generate_datasets is covered by the quantifier over all motions"
  },
  {
   "property": "C68",
   "status": "proved",
   "theorems": [
    "E3x.C68_exchange",
    "E3x.C68_no_odd",
    "E3x.C68_tensor",
    "E3x.C68_scalar",
    "E3x.C68_vectors"
   ],
   "note": ""
  },
  {
   "property": "C69",
   "status": "proved",
   "theorems": [
    "E3x.C69_unique",
    "E3x.C69_count",
    "E3x.C69_norm",
    "E3x.C69_rotation",
    "E3x.C69_degree2",
    "E3x.C69_degree3",
    "E3x.C69_degree2_rotation",
    "E3x.C69_degree3_rotation",
    "E3x.C69_reflection",
    "E3x.C69_parts",
    "E3x.C69_symmetric"
   ],
   "note": ""
  },
  {
   "property": "C70",
   "status": "proved",
   "theorems": [
    "E3x.C70_correspondence",
    "E3x.C70_harmonics",
    "E3x.C70_wigner_d",
    "E3x.C70_clebsch_gordan",
    "E3x.C70_basis",
    "E3x.C70_network",
    "E3x.C70_energies",
    "E3x.C70_tetracubes",
    "E3x.C70_mixed_wigner_d",
    "E3x.C70_mixed_tensor"
   ],
   "note": "Uniqueness and bijectivity of the correspondence; harmonics, Wigner-D, Clebsch-Gordan, basis; all networks, energies, tetracubes; witnesses for the failure of equivariance with mixed orders"
  },
  {
   "property": "C71",
   "status": "proved",
   "theorems": [
    "E3x.C71_different_degrees",
    "E3x.C71_same_degree",
    "E3x.C71_inequivalent",
    "E3x.C71_irreducible"
   ],
   "note": "Irreducibility, inequivalence and the scalar commutant, for all degrees and both orders."
  },
  {
   "property": "C72",
   "status": "proved",
   "theorems": [
    "E3x.C72_affine",
    "E3x.C72_bilinear",
    "E3x.C72_affine_converse"
   ],
   "note": "Affine maps: both directions. Bilinear maps: every equivariant one is a Tensor layer; the converse is C15."
  },
  {
   "property": "C73",
   "status": "proved",
   "theorems": [
    "E3x.C73_componentwise",
    "E3x.C73_pseudoscalars"
   ],
   "note": "Both directions."
  },
  {
   "property": "C74",
   "status": "proved",
   "theorems": [
    "E3x.C74_uniform",
    "E3x.C74_truncated_normal",
    "E3x.C74_tensor"
   ],
   "note": "C74_tensor: mean zero and variance scale (expectation values on an arbitrary probability space). C74_uniform, C74_truncated_normal: the constants. Real parameters; that the random number generator has these distributions is a hypothesis."
  },
  {
   "property": "C75",
   "status": "proved",
   "theorems": [
    "E3x.C75_lebedev",
    "E3x.C75_delley",
    "E3x.C75_lebedev_num",
    "E3x.C75_delley_num",
    "E3x.C75_rounding",
    "E3x.C75_sharp"
   ],
   "note": "All 50 shipped grids, all polynomials up to the listed precision, all grids within delta of the tables. C75_rounding gives the bounds in numbers for the stored doubles and for float32. The comparison of the tables with the binary files is done by tools/quadrature_tables.py, outside Lean. C75_sharp: the listed precision is not just a lower bound for the smallest rule."
  },
  {
   "property": "C76",
   "status": "proved",
   "theorems": [
    "E3x.C76_norm",
    "E3x.C76_norm_single",
    "E3x.C76_normalize",
    "E3x.C76_lost",
    "E3x.C76_naive",
    "E3x.C76_batch"
   ],
   "note": "C76_norm, C76_norm_single, C76_normalize: error bounds for every order of summation. C76_naive: the textbook formula overflows. C76_lost, C76_batch: vectors of a batch which are smaller than its largest entry by a factor of 2^78 (float32) get norm zero and are not normalised, contrary to what the docstring suggests."
  },
  {
   "property": "C77",
   "status": "proved",
   "theorems": [
    "E3x.C77_softmax",
    "E3x.C77_mask",
    "E3x.C77_lost",
    "E3x.C77_nan"
   ],
   "note": "C77_softmax, C77_mask: error bounds for every order of summation and every accurate exp. C77_lost, C77_nan: with a multiplicative mask the computed softmax is NaN if entries with weight zero exceed the others by 174 (float32), because the maximum ignores the mask."
  },
  {
   "property": "C78",
   "status": "proved",
   "theorems": [
    "E3x.C78_smooth_cutoff",
    "E3x.C78_beyond",
    "E3x.C78_special",
    "E3x.C78_invalid"
   ],
   "note": "C78_smooth_cutoff: error bound for all distances; C78_beyond: exactly zero beyond the cutoff; C78_special: infinite and NaN distances give zero; C78_invalid: invalid cutoffs."
  },
  {
   "property": "C79",
   "status": "proved",
   "theorems": [
    "E3x.C79_dense_evaluation",
    "E3x.C79_tensor_evaluation",
    "E3x.C79_error",
    "E3x.C79_bound",
    "E3x.C79_finite",
    "E3x.C79_equivariance",
    "E3x.C79_dense",
    "E3x.C79_tensor",
    "E3x.C79_message_evaluation",
    "E3x.C79_message"
   ],
   "note": "Dense, Tensor, FusedTensor, MessagePass: error bound for every evaluation order, finiteness, equivariance up to rounding. All numbers have one format; precision flags are not modelled. Existence of evaluations of MessagePass is proved for sparse index lists"
  },
  {
   "property": "C80",
   "status": "proved",
   "theorems": [
    "E3x.C80_coefficients",
    "E3x.C80_values",
    "E3x.C80_bound"
   ],
   "note": "the archive is a generated module; the evaluation of the polynomials is exact (rounding of these operations is not part of this claim)"
  },
  {
   "property": "C81",
   "status": "proved",
   "theorems": [
    "E3x.C81_gather",
    "E3x.C81_reduce",
    "E3x.C81_message_pass",
    "E3x.C81_attention",
    "E3x.C81_dense_minus_one",
    "E3x.C81_sparse_to_dense",
    "E3x.C81_dense_to_sparse",
    "E3x.C81_dense_to_sparse_default"
   ],
   "note": "C81_dense_minus_one shows that padding a dense list with -1 adds edges from the last node; the attention theorem covers destinations that are at least -1"
  },
  {
   "property": "C82",
   "status": "proved",
   "theorems": [
    "E3x.C82_matrices",
    "E3x.C82_roundtrip",
    "E3x.C82_inverse",
    "E3x.C82_values"
   ],
   "note": "the archive and the certificate are generated modules, the certificate is checked by the kernel; the products with the matrices are exact (rounding of these operations is not part of this claim)"
  },
  {
   "property": "C83",
   "status": "proved",
   "theorems": [
    "E3x.C83_orthogonality",
    "E3x.C83_coefficients",
    "E3x.C83_lebedev",
    "E3x.C83_delley"
   ],
   "note": "orthogonality for every grid with the precision of C75, recovery of coefficients, and both families of shipped grids"
  },
  {
   "property": "C84",
   "status": "proved",
   "theorems": [
    "E3x.C84_accuracy",
    "E3x.C84_finite",
    "E3x.C84_table",
    "E3x.C84_evaluation",
    "E3x.C84_float32"
   ],
   "note": "every format and order of evaluation, for r_is_normalized=True; accuracy, absence of overflow, accuracy of the table after every history, a numerical instance"
  },
  {
   "property": "C85",
   "status": "proved",
   "theorems": [
    "E3x.C85_bound",
    "E3x.C85_scalars",
    "E3x.C85_pseudotensors",
    "E3x.C85_tensors",
    "E3x.C85_scalar_input",
    "E3x.C85_vectors"
   ],
   "note": "All sizes; variance one proved exactly where it holds, with upper bounds in general and a counterexample (C85_vectors) to exact preservation."
  },
  {
   "property": "C86",
   "status": "proved",
   "theorems": [
    "E3x.C86_accuracy",
    "E3x.C86_finite",
    "E3x.C86_float32",
    "E3x.C86_lost"
   ],
   "note": "For all formats and orders of evaluation; C86_lost proves that the condition on the batch is needed."
  },
  {
   "property": "C87",
   "status": "proved",
   "theorems": [
    "E3x.C87_uniform",
    "E3x.C87_isotropic",
    "E3x.C87_points",
    "E3x.C87_half",
    "E3x.C87_hemisphere"
   ],
   "note": "Haar invariance from both sides for full strength, uniform heights, isotropy for every strength; the documentation for perturbation = 0.5 is refuted (C87_hemisphere)."
  },
  {
   "property": "C88",
   "status": "proved",
   "theorems": [
    "E3x.C88_products",
    "E3x.C88_mean",
    "E3x.C88_features",
    "E3x.C88_augmentation"
   ],
   "note": "Schur orthogonality, mean and covariance of randomly rotated features, equivariance of averaged models."
  },
  {
   "property": "C89",
   "status": "proved",
   "theorems": [
    "E3x.C89_change",
    "E3x.C89_change_defaults",
    "E3x.C89_change_negative",
    "E3x.C89_change_accepts",
    "E3x.C89_reflect",
    "E3x.C89_rotate",
    "E3x.C89_add",
    "E3x.C89_add_accepts",
    "E3x.C89_one_index"
   ],
   "note": "Whole arrays of any rank with all checks. Found: a negative max_degree m keeps (m+1)**2 components instead of raising; add raises IndexError for a zero-dimensional array among inputs without batch axes."
  },
  {
   "property": "C90",
   "status": "proved",
   "theorems": [
    "E3x.C90_sparse",
    "E3x.C90_dense",
    "E3x.C90_none",
    "E3x.C90_documented",
    "E3x.C90_documented_dense",
    "E3x.C90_rejected",
    "E3x.C90_rejected_dense",
    "E3x.C90_equivariant",
    "E3x.C90_copied",
    "E3x.C90_copied_dense",
    "E3x.C90_wide"
   ],
   "note": "Weights that broadcast act as documented in both formats; the documented ValueError for weights that cannot be broadcast to the inputs is violated (C90_copied, C90_wide)."
  },
  {
   "property": "C91",
   "status": "proved",
   "theorems": [
    "E3x.C91_never_wrong",
    "E3x.C91_no_cache",
    "E3x.C91_complete",
    "E3x.C91_locked",
    "E3x.C91_alone",
    "E3x.C91_finishes",
    "E3x.C91_stays_broken",
    "E3x.C91_torn_read",
    "E3x.C91_lost_update",
    "E3x.C91_torn_write"
   ],
   "note": "Safety for every schedule is proved; that sharing a cache without locks can raise, damage files and lose work is proved as negations (C91_torn_read, C91_torn_write, C91_lost_update)."
  },
  {
   "property": "C92",
   "status": "proved",
   "theorems": [
    "E3x.C92_lookup",
    "E3x.C92_dtype",
    "E3x.C92_range",
    "E3x.C92_local",
    "E3x.C92_scalars"
   ],
   "note": ""
  },
  {
   "property": "C93",
   "status": "proved",
   "theorems": [
    "E3x.C93_pool",
    "E3x.C93_clebsch_gordan",
    "E3x.C93_spherical_harmonics",
    "E3x.C93_wigner_d",
    "E3x.C93_tensor_conversion",
    "E3x.C93_pregenerated",
    "E3x.C93_pregenerated_package",
    "E3x.C93_damaged_package",
    "E3x.C93_no_file"
   ],
   "note": "The command without a path raises for a damaged file of the package (C93_damaged_package); with a path it writes nothing if the package has the degree (C93_no_file)."
  },
  {
   "property": "C94",
   "status": "proved",
   "theorems": [
    "E3x.C94_uniform",
    "E3x.C94_normal",
    "E3x.C94_truncated_normal",
    "E3x.C94_constant",
    "E3x.C94_kernels",
    "E3x.C94_validation"
   ],
   "note": "The variance is wrong by 1.9% for the truncated normal distribution (C94_truncated_normal, C94_constant); right for the others."
  },
  {
   "property": "C95",
   "status": "proved",
   "theorems": [
    "E3x.C95_dense",
    "E3x.C95_gated",
    "E3x.C95_reflect",
    "E3x.C95_rotate",
    "E3x.C95_tensor",
    "E3x.C95_tensor_inputs",
    "E3x.C95_tensor_scalars",
    "E3x.C95_fused",
    "E3x.C95_fused_inputs",
    "E3x.C95_fused_changes",
    "E3x.C95_harmonics",
    "E3x.C95_spherical",
    "E3x.C95_wigner_d"
   ],
   "note": "False for FusedTensor if the largest degree changes (C95_fused_changes); Tensor changes the type of products of scalars (C95_tensor_scalars)."
  },
  {
   "property": "C96",
   "status": "proved",
   "theorems": [
    "E3x.C96_edges",
    "E3x.C96_no_edges",
    "E3x.C96_features",
    "E3x.C96_basis",
    "E3x.C96_edges_dense",
    "E3x.C96_basis_bias"
   ],
   "note": "Sparse and dense index lists; linearity in features and basis functions is stated for the sparse format (C18_dense_eq_sparse relates the formats)."
  },
  {
   "property": "C97",
   "status": "proved",
   "theorems": [
    "E3x.C97_single",
    "E3x.C97_equal_values",
    "E3x.C97_cutoff",
    "E3x.C97_copies",
    "E3x.C97_uniform"
   ],
   "note": "Stated for sparse index lists (C19_dense_eq_sparse relates the formats)."
  },
  {
   "property": "C98",
   "status": "proved",
   "theorems": [
    "E3x.C98_heads",
    "E3x.C98_interleaved"
   ],
   "note": "Stated for sparse index lists (C19_dense_eq_sparse relates the formats). C98_interleaved shows which features belong to a head."
  },
  {
   "property": "C99",
   "status": "proved",
   "theorems": [
    "E3x.C99_tensor",
    "E3x.C99_sparse",
    "E3x.C99_dense",
    "E3x.C99_no_mixing"
   ],
   "note": "For Tensor and FusedTensor (C99_tensor) and MessagePass in both index formats."
  },
  {
   "property": "C100",
   "status": "proved",
   "theorems": [
    "E3x.C100_key_bias",
    "E3x.C100_scale",
    "E3x.C100_key_bias_encoding",
    "E3x.C100_value_bias",
    "E3x.C100_no_edges",
    "E3x.C100_value_scale"
   ],
   "note": "Stated for sparse index lists (C19_dense_eq_sparse relates the formats)."
  }
 ]
}
