{
"C01": {"status": "proved", "note": "Closed form of the pairwise index lists for every number of nodes, plus the error branch."},
"C02": {"status": "proved", "note": "Both conversions and the round trip for every rank and batch shape, row by row; small padding, default-padding collision and the loss of rows of an edgeless graph are shown by C02_small_pad_loses_edges, C02_default_pad_collides_with_source, C02_no_edges_no_rows."},
"C03": {"status": "proved", "note": "Dense = sparse, padding and order independence for every operation, at the level of one batch entry and of arrays of any rank; C03_sum_after_conversion chains the conversion with the reduction. For nodes without an edge (excluded in the statement) C03_isolated_node_differs shows that max/min differ between the formats."},
"C04": {"status": "proved", "note": "Closed form of both branches (one batch entry and arrays of any rank), hence normalisation, bounds, shift invariance, locality and agreement of formats. C04_padding_not_zero records that masked dense entries are not zeroed."},
"C05": {"status": "proved", "note": "Acceptance characterised exactly, with the error classes."},
"C06": {"status": "proved", "note": "Equivalence with the existence of a common broadcast shape; symmetry and reflexivity."},
"C07": {"status": "proved", "note": "Exact acceptance condition, returned degree and error branch; C07_zero_size_accepted records that a degree axis of size zero is accepted with max degree -1."},
"C08": {"status": "proved", "note": "Every component of the result is characterised; round trip, idempotence, compatibility with rotations and reflections are derived."},
"C09": {"status": "proved", "note": "Component-wise sum for any number of inputs, error branch, commutativity, associativity, equivariance."},
"C10": {"status": "proved", "note": "Block-diagonal matrices; the identity and products are those of the matrices."},
"C100": {"status": "proved", "note": "Stated for sparse index lists (C19_dense_eq_sparse relates the formats)."},
"C11": {"status": "proved", "note": ""},
"C12": {"status": "proved", "note": "For every block-diagonal matrix that is trivial on scalars; Wigner-D matrices are such matrices."},
"C13": {"status": "proved", "note": "All gates and all activations; Taylor branches with explicit error bounds"},
"C14": {"status": "proved", "note": "For every matrix with the properties IsRotation; that Wigner-D matrices have them is C27/C28/C30"},
"C15": {"status": "proved", "note": "Meaning, errors, output type, reflections"},
"C16": {"status": "proved", "note": "Meaning, errors, rotations, reflections"},
"C17": {"status": "proved", "note": "Both tensor implementations"},
"C18": {"status": "proved", "note": "equivariance, meaning in both formats, weights, edge order, format independence, relabelling"},
"C19": {"status": "proved", "note": "Equivariance, meaning in both formats, normalisation, edge order, renumbering; C19_logit says what the dot products are without using the helpers of the model. 0/0 is read as 0 here; C58 says at which nodes it occurs."},
"C20": {"status": "proved", "note": ""},
"C21": {"status": "proved", "note": "more_itertools.distinct_permutations is modelled by its documented result (distinct permutations in lexicographic order)"},
"C22": {"status": "proved", "note": "Rodrigues' formula, proper rotation, fixed axis, trace, composition, periodicity, scale invariance for all axes with squared length above tiny; the zero axis gives cos^2(angle/2) I."},
"C23": {"status": "proved", "note": "rotation_euler is Rx Ry Rz; round trips from the matrix and from the angles; between the numerical threshold and exact gimbal lock only an error bound of order sqrt(epsneg) holds (C23_near_gimbal)."},
"C24": {"status": "proved", "note": "All pairs, batched; the antiparallel branch needs the cross product with the cyclic shift to be non-negligible; C24_antiparallel_111/C24_fails prove the exception (zero matrix)."},
"C25": {"status": "proved", "note": "Axis independent of the strength, angle proportional to it; extremes; in the small-angle branch only up to 1e-17."},
"C26": {"status": "proved", "note": "All degrees; harmonic polynomials, parity, Racah normalisation, coordinates."},
"C27": {"status": "proved", "note": "All orthogonal matrices, all degrees, both orderings."},
"C28": {"status": "proved", "note": "Includes the link to Spec.IsRotation used by the layer theorems."},
"C29": {"status": "proved", "note": "All degrees and orders."},
"C30": {"status": "proved", "note": "Also the sign for improper rotations."},
"C31": {"status": "proved", "note": "matrices, round trip both ways, symmetry and tracelessness, compression, rotations both ways, meaning for spherical harmonics, validation"},
"C32": {"status": "proved", "note": "zero tolerance, general tolerances, results of conversions, validation"},
"C33": {"status": "proved", "note": "all four generators, every history incl. crashes before/after a save, path changes, removals; symbolic values are arguments (well-formedness of sympy terms assumed for the polynomials)"},
"C34": {"status": "proved", "note": "all tables, all four kinds, with slicing to a smaller degree; for Wigner-D tables the archive stores diagonal blocks only, and every generated table is block diagonal"},
"C35": {"status": "partial", "note": "the claim is false for a configured path (C35_fails: incomplete file makes every later request raise); proved: failing writes are tolerated, crashes before truncation or after completion are harmless, recovery by removing the file"},
"C36": {"status": "partial", "note": "Attributes after any history, invalid normalisation, validity, cache paths: proved. The first clause is false for the three settings bound at import: C36_defaults_frozen proves that no setter history changes them, C36_setters_ineffective_partial gives the witness."},
"C37": {"status": "proved", "note": "For all strictly increasing non-negative tables; the four shipped tables meet the hypotheses (C37_shipped_tables)."},
"C38": {"status": "proved", "note": "Assembly, coverage, consumption, validation and rejection. C38_too_few_type_error: with too few irreps the code may raise TypeError instead of ValueError."},
"C39": {"status": "proved", "note": "Proper rotations; with and without shift_by_id; combine_irreps equivariance; meaning, shift and invariance of traces."},
"C40": {"status": "proved", "note": "Fans, masks, duplication, initial values (real dtypes) and validation."},
"C41": {"status": "proved", "note": "Exact for every non-empty array; empty arrays raise."},
"C42": {"status": "proved", "note": "all radial, angular, cutoff and damping functions; equivariance for the default angular function (spherical harmonics)"},
"C43": {"status": "proved", "note": "Value range, value at zero, antitonicity, vanishing beyond the cutoff, positivity below, C-infinity (smooth) / continuity (cosine), closed forms, exact error condition."},
"C44": {"status": "proved", "note": "Switch: boundary values, range, monotone, symmetry, closed form, error bound of the masked slivers, coded derivative, exact error condition. Windows: partitions of unity; rectangular windows characterised exactly."},
"C45": {"status": "proved", "note": "Values, end values, partition of unity, coded derivative inside; C45_jvp_outside_nonzero documents that the coded derivative is wrong beyond the interval, which the property does not claim."},
"C46": {"status": "proved", "note": "All kinds; Taylor branch included with its error bound."},
"C47": {"status": "proved", "note": "Boundedness of the Chebyshev Taylor branch needs (num-1)^2*eps <= 6; C47_chebyshev_unbounded shows that without it the clause is false."},
"C48": {"status": "proved", "note": "Straight-line programs over all layers; induction on the program."},
"C49": {"status": "proved", "note": "All names and degrees."},
"C50": {"status": "proved", "note": "Scale invariance above the normalisation threshold, solid harmonics, zero vector; C50_short_vectors shows that shorter vectors are not normalised."},
"C51": {"status": "proved", "note": ""},
"C52": {"status": "proved", "note": ""},
"C53": {"status": "proved", "note": "jax.jvp with tangent one is modelled as the derivative of a function of one real variable"},
"C54": {"status": "proved", "note": "Entry-by-entry meaning in both formats for every rank, error branches, agreement of the formats. Reshaping an array with trailing size 0 is treated as an error (simplification)."},
"C55": {"status": "proved", "note": ""},
"C56": {"status": "proved", "note": "Orthogonality with the documented constants for all four normalisations, as exact surface integrals; addition theorem with Legendre polynomials."},
"C57": {"status": "proved", "note": "differentiation rules of JAX primitives are modelled (Model/Autodiff.lean); inexact second derivatives at the zero vector are shown in C57_zero_vector_second_derivative_inexact"},
"C58": {"status": "proved", "note": "NaN exactly if edges end in the node and all have cutoff zero; both formats."},
"C59": {"status": "proved", "note": "Message passing and attention in both formats, whole networks, and basis functions with a cutoff radius."},
"C60": {"status": "proved", "note": "Two structures, sparse format (message passing also dense); the first edge list without padding."},
"C61": {"status": "proved", "note": "covering maps: message passing, attention incl. NaN rows, networks; example: ring of any size covers the unit cell"},
"C62": {"status": "proved", "note": "translations, rotations/reflections, coverings (renumbering, supercells, batches), cutoff radius; md17 example total"},
"C63": {"status": "proved", "note": "for exact real arithmetic; thresholds of _bernstein are excluded in the example"},
"C64": {"status": "proved", "note": "energyAndForces models __call__ of the md17 example for all models of its form; the gradient is the mathematical derivative of the model of the energy, and all statements about forces are for points where the energy is differentiable (C64_smooth, C64_md17 say where)."},
"C65": {"status": "proved", "note": "random choices and permutations are arguments; the optimizer step is an arbitrary function"},
"C66": {"status": "proved", "note": "Target, existence, equivariance, order, additivity, symmetry and expressiveness of the moment of inertia example; expressiveness with the default Tensor layers"},
"C67": {"status": "proved", "note": "gradients and the optimizer (train_step) are not modelled; generate_datasets is covered by the quantifier over all motions"},
"C68": {"status": "proved", "note": ""},
"C69": {"status": "proved", "note": ""},
"C70": {"status": "proved", "note": "Uniqueness and bijectivity of the correspondence; harmonics, Wigner-D, Clebsch-Gordan, basis; all networks, energies, tetracubes; witnesses for the failure of equivariance with mixed orders"},
"C71": {"status": "proved", "note": "Irreducibility, inequivalence and the scalar commutant, for all degrees and both orders."},
"C72": {"status": "proved", "note": "Affine maps: both directions. Bilinear maps: every equivariant one is a Tensor layer; the converse is C15."},
"C73": {"status": "proved", "note": "Both directions."},
"C74": {"status": "proved", "note": "C74_tensor: mean zero and variance scale (expectation values on an arbitrary probability space). C74_uniform, C74_truncated_normal: the constants. Real parameters; that the random number generator has these distributions is a hypothesis."},
"C75": {"status": "proved", "note": "All 50 shipped grids, all polynomials up to the listed precision, all grids within delta of the tables. C75_rounding gives the bounds in numbers for the stored doubles and for float32. The comparison of the tables with the binary files is done by tools/quadrature_tables.py, outside Lean. C75_sharp: the listed precision is not just a lower bound for the smallest rule."},
"C76": {"status": "proved", "note": "C76_norm, C76_norm_single, C76_normalize: error bounds for every order of summation. C76_naive: the textbook formula overflows. C76_lost, C76_batch: vectors of a batch which are smaller than its largest entry by a factor of 2^78 (float32) get norm zero and are not normalised, contrary to what the docstring suggests."},
"C77": {"status": "proved", "note": "C77_softmax, C77_mask: error bounds for every order of summation and every accurate exp. C77_lost, C77_nan: with a multiplicative mask the computed softmax is NaN if entries with weight zero exceed the others by 174 (float32), because the maximum ignores the mask."},
"C78": {"status": "proved", "note": "C78_smooth_cutoff: error bound for all distances; C78_beyond: exactly zero beyond the cutoff; C78_special: infinite and NaN distances give zero; C78_invalid: invalid cutoffs."},
"C79": {"status": "proved", "note": "Dense, Tensor, FusedTensor, MessagePass: error bound for every evaluation order, finiteness, equivariance up to rounding. All numbers have one format; precision flags are not modelled. Existence of evaluations of MessagePass is proved for sparse index lists"},
"C80": {"status": "proved", "note": "the archive is a generated module; the evaluation of the polynomials is exact (rounding of these operations is not part of this claim)"},
"C81": {"status": "proved", "note": "C81_dense_minus_one shows that padding a dense list with -1 adds edges from the last node; the attention theorem covers destinations that are at least -1"},
"C82": {"status": "proved", "note": "the archive and the certificate are generated modules, the certificate is checked by the kernel; the products with the matrices are exact (rounding of these operations is not part of this claim)"},
"C83": {"status": "proved", "note": "orthogonality for every grid with the precision of C75, recovery of coefficients, and both families of shipped grids"},
"C84": {"status": "proved", "note": "every format and order of evaluation, for r_is_normalized=True; accuracy, absence of overflow, accuracy of the table after every history, a numerical instance"},
"C85": {"status": "proved", "note": "All sizes; variance one proved exactly where it holds, with upper bounds in general and a counterexample (C85_vectors) to exact preservation."},
"C86": {"status": "proved", "note": "For all formats and orders of evaluation; C86_lost proves that the condition on the batch is needed."},
"C87": {"status": "proved", "note": "Haar invariance from both sides for full strength, uniform heights, isotropy for every strength; the documentation for perturbation = 0.5 is refuted (C87_hemisphere)."},
"C88": {"status": "proved", "note": "Schur orthogonality, mean and covariance of randomly rotated features, equivariance of averaged models."},
"C89": {"status": "proved", "note": "Whole arrays of any rank with all checks. Found: a negative max_degree m keeps (m+1)**2 components instead of raising; add raises IndexError for a zero-dimensional array among inputs without batch axes."},
"C90": {"status": "proved", "note": "Weights that broadcast act as documented in both formats; the documented ValueError for weights that cannot be broadcast to the inputs is violated (C90_copied, C90_wide)."},
"C91": {"status": "proved", "note": "Safety for every schedule is proved; that sharing a cache without locks can raise, damage files and lose work is proved as negations (C91_torn_read, C91_torn_write, C91_lost_update)."},
"C92": {"status": "proved", "note": ""},
"C93": {"status": "proved", "note": "The command without a path raises for a damaged file of the package (C93_damaged_package); with a path it writes nothing if the package has the degree (C93_no_file)."},
"C94": {"status": "proved", "note": "The variance is wrong by 1.9% for the truncated normal distribution (C94_truncated_normal, C94_constant); right for the others."},
"C95": {"status": "proved", "note": "False for FusedTensor if the largest degree changes (C95_fused_changes); Tensor changes the type of products of scalars (C95_tensor_scalars)."},
"C96": {"status": "proved", "note": "Sparse and dense index lists; linearity in features and basis functions is stated for the sparse format (C18_dense_eq_sparse relates the formats)."},
"C97": {"status": "proved", "note": "Stated for sparse index lists (C19_dense_eq_sparse relates the formats)."},
"C98": {"status": "proved", "note": "Stated for sparse index lists (C19_dense_eq_sparse relates the formats). C98_interleaved shows which features belong to a head."},
"C99": {"status": "proved", "note": "For Tensor and FusedTensor (C99_tensor) and MessagePass in both index formats."}
}
