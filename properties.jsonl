{"id": "C01", "title": "Pairwise index lists enumerate every ordered pair exactly once", "statement": "For every num >= 1, sparse_pairwise_indices(num, mask_self) returns (dst, src) lists in which every ordered pair (i, j) with i, j < num occurs exactly once (pairs i = j are excluded iff mask_self), in lexicographic order, and nothing else occurs; dense_pairwise_indices(num, mask_self) returns num rows of width num-1 (or num) such that row i contains exactly the allowed partners of i in increasing order. For num < 1 both raise ValueError and return nothing.", "quantifier": "every integer num and both values of mask_self", "why_tests_cant": "The slice arithmetic delete(0, num*num, num+1) must be right for every num; tests sample a handful of sizes.", "anchors": ["e3x/ops/indexed.py:dense_pairwise_indices", "e3x/ops/indexed.py:sparse_pairwise_indices"]}
{"id": "C02", "title": "Dense and sparse index lists are interconvertible without losing, inventing or reordering edges", "statement": "For a dense adjacency list whose padding value is not smaller than the number of rows, dense_to_sparse_indices yields, batch entry by batch entry, exactly the non-padding (row, neighbour) pairs, row by row, and converting back with sparse_to_dense_indices reproduces each row's neighbours in order followed by padding only (a list without any edge comes back without rows, whatever the padding value). For any sparse list, sparse_to_dense_indices places in row i exactly the sources of the edges with destination i, in their original order. With an explicit padding value smaller than a destination index the round trip loses edges.", "quantifier": "every dense or sparse index list (all row counts, widths, neighbour values, padding positions, batches) and every padding value, explicit or default", "why_tests_cant": "Ragged neighbourhoods, isolated nodes, all-padding rows and batches of unequal size combine in unboundedly many ways.", "anchors": ["e3x/ops/indexed.py:dense_to_sparse_indices", "e3x/ops/indexed.py:sparse_to_dense_indices"]}
{"id": "C03", "title": "Indexed reductions give the same answer in both formats and never see padding", "statement": "indexed_sum/max/min over a dense list with where=(adj < num_nodes) equals the same reduction over the equivalent sparse list with num_segments=num_nodes, node by node; appending padding entries to either list, or permuting the edges of the sparse list, changes no output (min/max: nodes with at least one edge).", "quantifier": "every message array, every index list in either format, every amount of padding and every edge order", "why_tests_cant": "It is an equality between two different code paths that must hold for every graph.", "anchors": ["e3x/ops/indexed.py:_indexed_reduce", "e3x/ops/indexed.py:indexed_sum", "e3x/ops/indexed.py:indexed_max", "e3x/ops/indexed.py:indexed_min"]}
{"id": "C04", "title": "indexed_softmax is a probability distribution over each neighbourhood", "statement": "For every node with at least one real neighbour, the softmax values of its real neighbours are positive, at most one, sum to exactly one and are unchanged when a constant is added to all logits of that node; they do not depend on the values stored in padding positions nor on logits of other nodes, and the dense and sparse formats agree.", "quantifier": "every logit array, graph, multiplicative mask pattern and padding", "why_tests_cant": "Normalisation and independence have to hold for all real logits, including ties and large magnitudes, and for all graphs.", "anchors": ["e3x/ops/indexed.py:indexed_softmax"]}
{"id": "C05", "title": "Index-list arguments are accepted iff exactly one format is given", "statement": "All indexed operations accept the call iff either adj_idx alone, or the sparse indices alone (both with equal shape where both are needed) are supplied; every other combination raises before anything is computed. Dense reductions raise TypeError without `where`, sparse reductions raise TypeError without num_segments.", "quantifier": "every combination of present/absent arguments and shapes", "why_tests_cant": "The accepted set is an exact characterisation (iff) over all shapes.", "anchors": ["e3x/ops/indexed.py:_determine_index_type", "e3x/ops/indexed.py:_indexed_reduce"]}
{"id": "C06", "title": "is_broadcastable decides NumPy broadcastability", "statement": "is_broadcastable(s, t) returns True iff a common broadcast shape of s and t exists (equivalently, iff aligning both shapes at the right end, every pair of extents is equal or contains a one); it is symmetric and reflexive.", "quantifier": "all pairs of shapes of any rank", "why_tests_cant": "Exactness over all ranks and extents.", "anchors": ["e3x/util.py:is_broadcastable"]}
{"id": "C07", "title": "Feature shape validation is exact", "statement": "The feature-shape check accepts a shape iff it has at least three axes, its third-last axis is 1 or 2 and its second-last axis is a perfect square (L+1)^2, in which case it returns exactly L; otherwise it raises ValueError. (The documented precondition L >= 0 is not enforced: a size-zero degree axis is accepted with L = -1.)", "quantifier": "every shape", "why_tests_cant": "The accept/reject boundary involves a rounded square root and must be right for every size.", "anchors": ["e3x/nn/features.py:_extract_max_degree_and_check_shape"]}
{"id": "C08", "title": "change_max_degree_or_type keeps every surviving component and zeroes the rest", "statement": "The result has max degree and type as requested; a component (parity, degree, order, feature) present in both the input and the output type is copied unchanged, a component absent from the input is zero. Consequently converting up (larger degree, pseudotensors included) and back is the identity, conversion is idempotent, linear, and commutes with rotations and reflections. Without pseudotensors, the single channel holds even degrees of the even channel and odd degrees of the odd channel.", "quantifier": "all feature arrays, degrees and type combinations", "why_tests_cant": "Eight combinations of (1|2 channels in/out) x (grow|shrink) for all degrees.", "anchors": ["e3x/nn/features.py:change_max_degree_or_type"]}
{"id": "C09", "title": "add sums features component by component across types and degrees", "statement": "add(x, y) has max degree max(Lx, Ly) and includes pseudotensors iff x or y does; each component equals the sum of the corresponding components of x and y, missing components counting as zero; it is commutative, associative, and commutes with rotation and reflection.", "quantifier": "all pairs (triples) of feature arrays", "why_tests_cant": "Algebraic law over all degrees/types.", "anchors": ["e3x/nn/features.py:add"]}
{"id": "C10", "title": "rotate and reflect are group actions", "statement": "reflect is an involution; rotate is linear, preserves shape, never mixes parity channels or feature channels, rotating by D1 then D2 equals rotating by D1 D2, rotation by the Wigner-D matrix of the identity is the identity, and rotate commutes with reflect.", "quantifier": "all features, all block-diagonal rotation matrices", "why_tests_cant": "Laws over all real arrays and group elements.", "anchors": ["e3x/nn/features.py:rotate", "e3x/nn/features.py:reflect"]}
{"id": "C11", "title": "Parity masks select exactly the even/odd degrees", "statement": "even_degree_mask(L) is 1 at the components whose degree is even and 0 elsewhere, odd_degree_mask(L) is its complement, for every L, in either ordering of orders.", "quantifier": "every maximum degree and component", "why_tests_cant": "All degrees.", "anchors": ["e3x/nn/features.py:even_degree_mask", "e3x/nn/features.py:odd_degree_mask"]}
{"id": "C12", "title": "Dense layers are equivariant under rotations and reflections", "statement": "For all weights, biases and inputs, Dense(rotate(x)) = rotate(Dense(x)) and Dense(reflect(x)) = reflect(Dense(x)); the bias reaches only the scalar (degree 0, even parity) component, and different degrees or parities never mix.", "quantifier": "all parameters, inputs, degrees, feature counts and rotations", "why_tests_cant": "Equivariance is a universally quantified identity; tests sample random rotations with tolerance.", "anchors": ["e3x/nn/modules.py:Dense"]}
{"id": "C13", "title": "Gated activations are equivariant and equal the scalar function on scalars", "statement": "Every gated activation multiplies all components of a feature channel by one gate computed from its proper-scalar component; hence it commutes with rotations and reflections, preserves zero, and on scalar inputs equals the documented scalar function (relu, leaky_relu, elu, celu, silu, softsign, hard_tanh, relu6, hard_silu, shifted_softplus, bent_identity ...) wherever no Taylor branch is taken.", "quantifier": "all inputs, all gate functions", "why_tests_cant": "Identity over all real inputs including branch boundaries.", "anchors": ["e3x/nn/activations.py:_gated_linear", "e3x/nn/activations.py:relu", "e3x/nn/activations.py:hard_tanh", "e3x/nn/activations.py:relu6"]}
{"id": "C14", "title": "Tensor layers are equivariant under rotations", "statement": "For all weights and inputs, Tensor(rotate(x), rotate(y)) = rotate(Tensor(x, y)) with the Wigner-D matrices of one rotation for the respective maximum degrees, in every combination of input/output types.", "quantifier": "all parameters, inputs, maximum degrees, types, rotations", "why_tests_cant": "Universally quantified over SO(3), degrees and reals.", "anchors": ["e3x/nn/modules.py:Tensor"]}
{"id": "C15", "title": "Tensor layers are equivariant under reflections and produce exactly the documented output type", "statement": "Tensor(reflect(x), reflect(y)) = reflect(Tensor(x, y)); the output has max degree as requested (default max(Lx, Ly)), one parity channel iff pseudotensors are excluded or cannot arise; requests above Lx+Ly or with mismatched feature counts raise ValueError.", "quantifier": "all parameters, inputs, degrees, types", "why_tests_cant": "The parity bookkeeping has eight paths times all degrees.", "anchors": ["e3x/nn/modules.py:Tensor", "e3x/nn/modules.py:_make_tensor_product_mask"]}
{"id": "C16", "title": "FusedTensor layers are equivariant under rotations and reflections", "statement": "For all weights and inputs FusedTensor commutes with rotations (given by one SO(3) element) and with reflections, in every combination of types.", "quantifier": "all parameters, inputs, degrees, types, rotations", "why_tests_cant": "Universally quantified identity.", "anchors": ["e3x/nn/modules.py:FusedTensor"]}
{"id": "C17", "title": "TensorDense inherits equivariance", "statement": "TensorDense(x) commutes with rotations and reflections for all parameters, with either tensor implementation.", "quantifier": "all parameters, inputs, rotations", "why_tests_cant": "Composition must preserve the law in all branches.", "anchors": ["e3x/nn/modules.py:TensorDense"]}
{"id": "C18", "title": "MessagePass is equivariant under rotations, reflections and relabelling of nodes", "statement": "The output of MessagePass commutes with simultaneous rotation (reflection) of node and edge features, with any permutation of the nodes (relabelling index lists accordingly), is independent of the order of sparse edges, and gives the same result for a dense list and the equivalent sparse list.", "quantifier": "all graphs, permutations, features, parameters", "why_tests_cant": "Quantifies over all permutations and graphs.", "anchors": ["e3x/nn/modules.py:_Conv", "e3x/nn/modules.py:MessagePass"]}
{"id": "C19", "title": "Attention weights are rotation invariant and normalised, so attention is equivariant", "statement": "MultiHeadAttention commutes with rotations and reflections of all inputs and with node relabelling; for every node with a real neighbour and every head the attention weights of its neighbours sum to one.", "quantifier": "all graphs, parameters, heads, rotations", "why_tests_cant": "Universal identity involving softmax, heads and message passing.", "anchors": ["e3x/nn/modules.py:MultiHeadAttention", "e3x/nn/modules.py:SelfAttention"]}
{"id": "C20", "title": "Cartesian ordering is a bijective relabelling of orders", "statement": "For each degree l the Cartesian permutation is a bijection of the 2l+1 orders that lists orders as +l, -l, +(l-1), -(l-1), ..., 0; across degrees it never moves a component to another degree; consequently results computed in Cartesian order are the results in the default order with components relabelled, and l = 1 is ordered x, y, z.", "quantifier": "every degree and component", "why_tests_cant": "All degrees.", "anchors": ["e3x/so3/_common.py:_cartesian_permutation_for_degree", "e3x/so3/_common.py:_cartesian_permutation"]}
{"id": "C21", "title": "Monomial enumeration is complete and duplicate free, and all size formulas are exact", "statement": "The list of monomial powers of degree d contains every triple of non-negative integers with sum d exactly once; likewise for the nine-component rotation powers; its length, and the totals over degrees, equal the closed formulas used to size lookup tables (the integer divisions involved are exact).", "quantifier": "every degree", "why_tests_cant": "Table sizes and index offsets must be right for every degree; tests check small ones.", "anchors": ["e3x/so3/_common.py:_monomial_powers_of_degree", "e3x/so3/_common.py:_total_number_of_cartesian_monomials", "e3x/so3/_common.py:_partitions", "e3x/so3/_common.py:_multicombinations"]}
{"id": "C22", "title": "rotation(axis, angle) is a proper rotation about the axis", "statement": "For every non-zero axis and every angle the returned matrix is orthogonal with determinant one, leaves the axis fixed, composes additively in the angle, is 2*pi periodic, depends only on the direction of the axis, and has trace 1 + 2 cos(angle). For the zero axis it returns cos^2(angle/2) times the identity, which is not a rotation in general.", "quantifier": "all axes and angles", "why_tests_cant": "Trigonometric identity over all reals.", "anchors": ["e3x/so3/rotations.py:rotation"]}
{"id": "C23", "title": "Euler angles round-trip", "statement": "rotation_euler(a, b, c) is always a proper rotation; euler_angles_from_rotation of any proper rotation not at the numerical gimbal-lock threshold returns angles which rotation_euler maps back to the same matrix; at exact gimbal lock the round trip also holds.", "quantifier": "all angles, all rotation matrices", "why_tests_cant": "Continuous group; singular cases have measure zero and are missed by random tests.", "anchors": ["e3x/so3/rotations.py:rotation_euler", "e3x/so3/rotations.py:euler_angles_from_rotation"]}
{"id": "C24", "title": "alignment_rotation aligns", "statement": "For every pair of non-zero vectors, alignment_rotation(a, b) is a proper rotation that maps the direction of a to the direction of b along the shortest arc. The one exception: for exactly antiparallel vectors whose direction is (numerically) parallel to (1,1,1) the function does not return a rotation; for a = (1,1,1), b = -a it returns the zero matrix.", "quantifier": "all pairs of non-zero vectors", "why_tests_cant": "Degenerate directions have measure zero.", "anchors": ["e3x/so3/rotations.py:alignment_rotation"]}
{"id": "C25", "title": "random_rotation always returns a proper rotation", "statement": "For every random draw and every perturbation strength in [0, 1], random_rotation returns an orthogonal matrix with determinant one (away from the numerical small-angle branch); perturbation 0 gives the identity and perturbation 1 the undamped rotation; values outside [0,1] are clamped to that interval.", "quantifier": "all random draws and perturbation strengths", "why_tests_cant": "Must hold for all outcomes of the random generator.", "anchors": ["e3x/so3/rotations.py:random_rotation"]}
{"id": "C26", "title": "Spherical harmonics have the right homogeneity, parity, value and normalisation", "statement": "Y_lm as computed from the symbolic generator is a homogeneous polynomial of degree l, satisfies Laplace's equation, satisfies Y_lm(-r) = (-1)^l Y_lm(r), and in Racah normalisation the sum over m of Y_lm(r)^2 is |r|^(2l) for every r; l = 1 reproduces the coordinates.", "quantifier": "every degree, order and vector", "why_tests_cant": "All degrees; tests check a few degrees numerically.", "anchors": ["e3x/so3/_symbolic.py:_spherical_harmonics", "e3x/so3/irreps.py:spherical_harmonics", "e3x/so3/irreps.py:solid_harmonics"]}
{"id": "C27", "title": "Rotating a vector and then evaluating equals evaluating and then applying the Wigner-D matrix", "statement": "For every proper or improper rotation matrix R, every vector r and every maximum degree, spherical_harmonics(r @ R) = spherical_harmonics(r) @ wigner_d(R), in both orderings of orders.", "quantifier": "all orthogonal matrices, vectors, degrees", "why_tests_cant": "The central equivariance law, for all degrees and all of O(3).", "anchors": ["e3x/so3/rotations.py:wigner_d", "e3x/so3/_wigner_d_lut.py", "e3x/so3/irreps.py:spherical_harmonics"]}
{"id": "C28", "title": "Wigner-D matrices form an orthogonal, block-diagonal representation", "statement": "wigner_d(I) = I, wigner_d(R1 @ R2) = wigner_d(R1) @ wigner_d(R2), wigner_d(R)^T = wigner_d(R)^-1 and entries connecting different degrees vanish, for every maximum degree; the degree-one block in Cartesian order is R itself.", "quantifier": "all pairs of orthogonal matrices and all degrees", "why_tests_cant": "Group homomorphism law over a continuous group.", "anchors": ["e3x/so3/rotations.py:wigner_d", "e3x/so3/_symbolic.py:_polynomial_dot_product", "e3x/so3/_symbolic.py:_rotate_xyz_polynomial"]}
{"id": "C29", "title": "Clebsch-Gordan tables obey the selection rules", "statement": "clebsch_gordan(l1max, l2max, l3max) entries vanish unless |l1-l2| <= l3 <= l1+l2, and vanish unless m3 is one of m1+m2, m1-m2, m2-m1, -m1-m2 up to sign; so enumerating only those orders when generating the table loses nothing.", "quantifier": "all degrees and orders", "why_tests_cant": "All degrees.", "anchors": ["e3x/so3/_symbolic.py:_clebsch_gordan", "e3x/so3/_clebsch_gordan_lut.py"]}
{"id": "C30", "title": "Clebsch-Gordan coupling is equivariant", "statement": "For every rotation R and all degrees, coupling rotated irreps with the Clebsch-Gordan table gives the rotated coupling: sum CG[i,j,k] D[i,i'] D[j,j'] = sum CG[i',j',k'] D[k,k'].", "quantifier": "all rotations and degree triples", "why_tests_cant": "Holds for all of SO(3) and all degrees.", "anchors": ["e3x/so3/_symbolic.py:_clebsch_gordan", "e3x/so3/irreps.py:clebsch_gordan"]}
{"id": "C31", "title": "Irreps and traceless symmetric tensors are in bijection", "statement": "For every degree, batch, ordering and normalisation: tensor_to_irreps(irreps_to_tensor(x)) = x; the result of irreps_to_tensor is symmetric and all its traces vanish; irreps_to_tensor(tensor_to_irreps(t)) = t for every traceless symmetric t; compressing and expanding symmetric tensors are inverse to each other; multiplying irreps with wigner_d(R) rotates all indices of the tensor with R and conversely; the tensor of the spherical harmonics of r is the traceless part of r x ... x r. The linear systems solved for the conversion matrices are never singular; invalid degrees, shapes and normalisations raise ValueError.", "quantifier": "all degrees, batches, inputs, normalisations, orderings, rotations and cache states", "why_tests_cant": "All degrees.", "anchors": ["e3x/so3/irreps.py:tensor_to_irreps", "e3x/so3/irreps.py:irreps_to_tensor", "e3x/so3/_tensor_conversion_lut.py"]}
{"id": "C32", "title": "is_traceless_symmetric decides the documented predicate", "statement": "With zero tolerance, is_traceless_symmetric(x) is True iff x is invariant under all permutations of its indices and the trace over every pair of indices vanishes (checking the last two only suffices by symmetry). With other tolerances it is True iff all permuted pairs of entries agree up to the tolerances and the last traces are at most atol; results of irreps_to_tensor are always accepted.", "quantifier": "all tensors of every rank", "why_tests_cant": "Correctness of checking only a subset of permutations/traces must hold for all ranks.", "anchors": ["e3x/so3/irreps.py:is_traceless_symmetric"]}
{"id": "C33", "title": "Lookup tables do not depend on the history of requests", "statement": "For every sequence of requests (any max degrees in any order, with or without a disk cache, starting from any valid cache) each request returns exactly the table a from-scratch computation would return, and the degree stored in the disk cache never decreases.", "quantifier": "all finite histories of requests and cache states", "why_tests_cant": "History quantifier.", "anchors": ["e3x/so3/_spherical_harmonics_lut.py", "e3x/so3/_clebsch_gordan_lut.py", "e3x/so3/_wigner_d_lut.py", "e3x/so3/_tensor_conversion_lut.py", "e3x/so3/_lookup_table_generation_utility.py"]}
{"id": "C34", "title": "Compressed caches decompress to the original table", "statement": "Storing only non-zero entries with their indices and scattering them into a zero table reproduces the table exactly, including after slicing to a smaller degree.", "quantifier": "all tables", "why_tests_cant": "Round trip for all tables.", "anchors": ["e3x/so3/_spherical_harmonics_lut.py:_compress", "e3x/so3/_clebsch_gordan_lut.py", "e3x/so3/_wigner_d_lut.py"]}
{"id": "C35", "title": "A crash while saving must not break later requests", "statement": "If the process dies at any point of a cache save, every later request still returns the correct table. (False for a configured cache path: a truncated file makes later loads raise.) A failing write (OSError) is tolerated and returns the correct table.", "quantifier": "all crash points and histories", "why_tests_cant": "Crash points.", "anchors": ["e3x/so3/_lookup_table_generation_utility.py:_save_lookup_table_to_disk", "e3x/so3/_lookup_table_generation_utility.py:_load_lookup_table_from_disk"]}
{"id": "C36", "title": "Config setters change the defaults of subsequent calls", "statement": "After e3x.Config.set_cartesian_order / set_normalization / set_use_fused_tensor, calls that do not pass the keyword use the new value; an invalid normalization raises ValueError and changes nothing; unrelated settings are unaffected. (The default keyword values are bound when the library is imported, so the first clause fails for code that changes Config after import.)", "quantifier": "all histories of setter calls and API calls", "why_tests_cant": "History quantifier.", "anchors": ["e3x/config.py:Config", "e3x/so3/irreps.py:spherical_harmonics", "docs/source/changing_defaults.rst"]}
{"id": "C37", "title": "Quadrature grid selection is optimal", "statement": "Given precision p, the selected grid has the smallest available precision >= p (or the finest grid if none suffices); given num n, the grid with the most points not exceeding n (or the smallest grid if all exceed it). Passing neither or both, or an unknown kind, raises ValueError.", "quantifier": "all requested values and all strictly increasing tables", "why_tests_cant": "Boundary behaviour for all requested values.", "anchors": ["e3x/so3/quadrature.py:_load_grid"]}
{"id": "C38", "title": "Matrix-of-matrices assembly consumes exactly the advertised irreps", "statement": "make_square_matrix applied to irreps with the multiplicities from make_dict_irreps_mult consumes each irrep exactly once (each pointer ends at its multiplicity, never overruns), and every entry of the result lies in exactly one rectangle; inputs with too few irreps are always rejected with an exception (ValueError, or TypeError when the array concatenation notices different widths first), never silently truncated.", "quantifier": "all degree lists, multiplicities, max degrees", "why_tests_cant": "Index bookkeeping for all degree lists.", "anchors": ["e3x/matrix/matmat.py:make_square_matrix", "e3x/matrix/matmat.py:make_dict_irreps_mult", "e3x/matrix/matmat.py:make_rectangular_matrix"]}
{"id": "C39", "title": "Matrix assembly is equivariant and traces read back", "statement": "Rotating the input irreps conjugates the assembled matrix by the block-diagonal rotation; get_traces(shift_by_id) of a matrix assembled with shift_by_id equals the traces without shift.", "quantifier": "all rotations, degree lists", "why_tests_cant": "All degree lists and rotations.", "anchors": ["e3x/matrix/matmat.py:make_square_matrix", "e3x/matrix/matmat.py:get_traces"]}
{"id": "C40", "title": "Tensor-product initialisation: fan-in counts and masks match the allowed couplings", "statement": "The fan computed for each output (parity, degree) equals the number of input pairs that satisfy the parity and triangle rules, the mask selects exactly these couplings and is zero elsewhere; the duplicated kernel assigns to each component the weight of its degree.", "quantifier": "all degree triples and types", "why_tests_cant": "Combinatorial identity over all degrees.", "anchors": ["e3x/nn/initializers.py", "e3x/nn/modules.py:_make_tensor_product_mask", "e3x/nn/modules.py:_duplication_indices"]}
{"id": "C41", "title": "norm and normalize are exact and safe", "statement": "norm equals the Euclidean norm for every input (scaling included), has derivative x/|x| (zero at the origin); normalize returns a unit vector in the same direction whenever the squared norm exceeds the smallest normal number and the input unchanged otherwise; no input divides by zero.", "quantifier": "all vectors", "why_tests_cant": "Edge cases at and near zero over all inputs.", "anchors": ["e3x/ops/safe.py:norm", "e3x/ops/safe.py:normalize", "e3x/ops/safe.py:normalize_and_return_norm"]}
{"id": "C42", "title": "basis() is a radial function times a spherical harmonic and is equivariant", "statement": "basis(r)[component lm, feature k] = radial_k(|r|) * cutoff(|r|) * damping(|r|, degree >= 1 only) * Y_lm(r/|r|) placed in the parity channel of l; hence it rotates with Wigner-D and reflects as a proper tensor; beyond the cutoff it vanishes; return values appear in the documented order.", "quantifier": "all vectors, degrees, radial functions", "why_tests_cant": "All vectors including zero.", "anchors": ["e3x/nn/wrappers.py:basis", "e3x/nn/wrappers.py:ExponentialBasis"]}
{"id": "C43", "title": "Cutoff functions are one at zero, monotone, and vanish beyond the cutoff", "statement": "smooth_cutoff and cosine_cutoff map [0, inf) into [0,1], equal 1 at 0, are antitone, continuous, are 0 for x >= cutoff and positive below; smooth_cutoff is infinitely differentiable on (0, inf) with all derivatives zero at the cutoff; cosine_cutoff is continuously differentiable; cutoff <= 0 raises ValueError.", "quantifier": "all distances and cutoffs", "why_tests_cant": "All reals.", "anchors": ["e3x/nn/functions/cutoff.py"]}
{"id": "C44", "title": "Switch and window functions partition unity", "statement": "smooth_switch is 0 below x0, 1 above x1, monotone in between, satisfies s(x0+t) + s(x1-t) = 1, agrees up to a bound below the smallest positive float with an infinitely differentiable function whose derivatives all vanish at x0 and x1, and x0 >= x1 raises; smooth_window and triangular_window basis functions are non-negative and sum to one on [0, limit*(num-1)/num]; rectangular windows cover [0, limit] with at most two non-zero at a point.", "quantifier": "all inputs, numbers of windows, limits", "why_tests_cant": "All reals and all num.", "anchors": ["e3x/nn/functions/switch.py", "e3x/nn/functions/window.py"]}
{"id": "C45", "title": "Bernstein basis: non-negative partition of unity with the coded derivative", "statement": "For every num >= 1 and x, the Bernstein basis functions are non-negative and sum to one, and equal binom(n,v) x^v (1-x)^(n-v) inside (eps, 1-eps); the hand-written derivative is the derivative of that polynomial; num < 1 raises.", "quantifier": "all num and all x", "why_tests_cant": "Log-space evaluation must agree with the polynomial for all num.", "anchors": ["e3x/nn/functions/bernstein.py"]}
{"id": "C46", "title": "Distance mappings map [0, inf) into (0, 1], decreasing from one", "statement": "reciprocal_mapping (all kinds) and exponential_mapping take value 1 at 0, lie in (0,1], and are antitone on [0, inf); damped and cuspless variants lie above/below as documented; unknown kind raises ValueError.", "quantifier": "all x >= 0, all kinds, gamma > 0", "why_tests_cant": "All reals.", "anchors": ["e3x/nn/functions/mappings.py"]}
{"id": "C47", "title": "Chebyshev/Fourier/Gaussian bases are the documented functions, bounded by one", "statement": "Chebyshev basis values equal the Chebyshev polynomials T_k on the non-Taylor branch, satisfy the three-term recurrence and are bounded by one; Fourier basis values are cos(k pi x / limit); Gaussians lie in (0,1] and peak at their centre; num < 1 raises.", "quantifier": "all num, x, limits", "why_tests_cant": "All k and x.", "anchors": ["e3x/nn/functions/chebyshev.py", "e3x/nn/functions/trigonometric.py", "e3x/nn/functions/gaussian.py"]}
{"id": "C48", "title": "A whole E(3)-equivariant model built from e3x layers is equivariant", "statement": "Any composition of the library's layers (Dense, activations, Tensor/FusedTensor, MessagePass, attention, add, change of type) commutes with rotations and reflections of its inputs.", "quantifier": "every finite composition of layers with any parameters", "why_tests_cant": "Induction over all networks.", "anchors": ["e3x/nn/modules.py", "e3x/nn/activations.py", "e3x/nn/features.py"]}
{"id": "C49", "title": "Normalisation constants are consistent", "statement": "Switching between the four normalisations multiplies degree-l components by sqrt(2l+1), sqrt((2l+1)/4pi), 1, 1 respectively relative to Racah, so Wigner-D equivariance holds for each of them; any other name raises ValueError.", "quantifier": "all degrees, normalisations", "why_tests_cant": "All degrees.", "anchors": ["e3x/so3/_normalization.py", "e3x/so3/irreps.py:spherical_harmonics"]}
{"id": "C50", "title": "Scaling: spherical_harmonics depends only on direction, solid_harmonics scales as r^l", "statement": "spherical_harmonics(a r) = spherical_harmonics(r) for a > 0 whenever |r|^2 and |a r|^2 exceed the smallest normal number of the float type (shorter non-zero vectors are not normalised, so for them the result depends on the length); solid_harmonics(a r)_l = a^l solid_harmonics(r)_l; at r = 0 all degrees l >= 1 vanish and l = 0 is the constant.", "quantifier": "all vectors, scales, degrees", "why_tests_cant": "All vectors including the origin.", "anchors": ["e3x/so3/irreps.py:spherical_harmonics", "e3x/so3/irreps.py:solid_harmonics"]}
{"id": "C51", "title": "smooth_damping vanishes at the origin and increases to one", "statement": "For gamma > 0 smooth_damping is 0 at 0, lies strictly between 0 and 1 for x > 0, is increasing and continuous on [0, inf), equals exp(-e/(1-e)) with e = exp(-gamma x), never divides by zero, and all its derivatives vanish at 0.", "quantifier": "all x >= 0, all gamma > 0", "why_tests_cant": "Monotonicity and continuity quantify over all pairs of real distances and all decay constants.", "anchors": ["e3x/nn/functions/damping.py:smooth_damping"]}
{"id": "C52", "title": "sinc basis functions are cardinal sines cut off continuously at the limit", "statement": "Entry k of sinc(x) is sin((k+1) pi x/limit)/((k+1) pi x/limit) for 0 < x <= limit, 1 at 0, 0 from the limit on, bounded by one and continuous everywhere.", "quantifier": "all x, limits and basis indices", "why_tests_cant": "Continuity and boundedness quantify over all reals and all frequencies.", "anchors": ["e3x/nn/functions/trigonometric.py:sinc"]}
{"id": "C53", "title": "evaluate_derivatives returns the function and its derivatives in order", "statement": "evaluate_derivatives(f, x, max_order) returns a list of max_order + 1 values whose entry i is the derivative of order i of f at x (entry 0 is f(x)); a negative max_order raises ValueError.", "quantifier": "every function, every point, every maximum order", "why_tests_cant": "The derivative is built by nesting max_order times; tests check a few orders of a few functions, not every order.", "anchors": ["e3x/ops/helpers.py:evaluate_derivatives"]}
{"id": "C54", "title": "Gathering node values along edges acts entry by entry for arrays of any rank", "statement": "gather_src with a dense list returns out[b, i, m, t] = x[b, adj[b, i, m], t] and with a sparse list out[b, p, t] = x[b, src[b, p], t]; gather_dst returns x[b, dst[b, p], t], respectively x[b, i, t] for every column of a dense list; b ranges over any number of batch axes and t over any number of feature axes. Padding indices read the last node and never raise. Lists whose batch axes differ from those of x raise ValueError; missing or conflicting index arguments raise RuntimeError. Dense and sparse lists of the same graph gather the same multiset of neighbour values at every node.", "quantifier": "every array and index list of any rank and shape, in both formats, including padding", "why_tests_cant": "The functions flatten, map and restore arbitrary batch shapes; tests use a few shapes, and a wrong axis or flattening order shows only for particular ranks.", "anchors": ["e3x/ops/indexed.py:gather_src", "e3x/ops/indexed.py:gather_dst", "e3x/ops/indexed.py:_gather_dense", "e3x/ops/indexed.py:_gather_sparse"]}
{"id": "C55", "title": "Coupling irreps loses no information and preserves norms", "statement": "For all degrees l1 and l2 covered by clebsch_gordan(max_degree1, max_degree2, max_degree3), the coefficients are orthonormal: for output components c, c' whose degrees satisfy the triangle rule, the sum of CG[a, b, c] * CG[a, b, c'] over the components a of degree l1 and b of degree l2 is 1 if c = c' and 0 otherwise. If l1 + l2 <= max_degree3 they are also complete: the sum of CG[a, b, c] * CG[a', b', c] over all c is 1 if (a, b) = (a', b') and 0 otherwise. Hence every product x[a] * y[b] can be recovered from the coupled features, and the sum of squares of the coupled features is that of the products. If max_degree3 < l1 + l2, some non-zero combination of products is mapped to zero.", "quantifier": "every pair of degrees, every triple of maximum degrees, both component orders, every valid cache state", "why_tests_cant": "Tests compare a few low degrees against stored tables; a wrong normalisation or sign at one high degree or order breaks orthonormality only there.", "anchors": ["e3x/so3/irreps.py:clebsch_gordan", "e3x/so3/_symbolic.py:_clebsch_gordan", "e3x/so3/_clebsch_gordan_lut.py:_generate_clebsch_gordan_lookup_table"]}
{"id": "C56", "title": "Spherical harmonics are orthogonal functions on the unit sphere with the documented constants", "statement": "Integrated over the surface of the unit sphere, the product of two components returned by spherical_harmonics is zero if the components differ, and for a component of degree l times itself it is the documented constant of the normalization: 4 pi / (2l+1) for 'racah' and 'schmidt', 4 pi for '4pi', 1 for 'orthonormal'. The components of degree l at two vectors, multiplied and summed, give |r|^l |s|^l P_l(cos of the angle between them) with the Legendre polynomial P_l.", "quantifier": "every maximum degree, pair of components, ordering, normalization, vectors and valid cache state", "why_tests_cant": "All degrees and orders, and an integral over a continuum; tests use a quadrature of finite order at a few degrees.", "anchors": ["e3x/so3/irreps.py:spherical_harmonics", "e3x/so3/_symbolic.py:_spherical_harmonics", "e3x/so3/_normalization.py:normalization_constant"]}
{"id": "C57", "title": "Gradients are finite everywhere and equal the true derivatives", "statement": "jax.grad, applied any number of times, gives finite derivatives of the cutoff, switch, damping and window functions, the mappings, all radial basis functions, the gated activations, norm, normalize, spherical_harmonics and basis: for every admissible input, including a distance equal to or beyond the cutoff, a distance of zero and the zero displacement vector, where the formulas divide by zero. The computed derivatives of every order are those of the computed function (of the documented smooth function at the ends of its support), except within machine precision of the points where the code switches to a Taylor polynomial or a constant. At the zero vector, first derivatives of functions of the norm follow the convention that the norm has gradient zero there; second derivatives are finite but need not be the true ones.", "quantifier": "every admissible argument, every input, every order of differentiation and every choice of variables, every valid cache state for the angular functions", "why_tests_cant": "A gradient can become nan at a single point of the continuum while the value is right, and at some order of differentiation only; tests differentiate once at sample points.", "anchors": ["e3x/nn/functions/cutoff.py:smooth_cutoff", "e3x/nn/functions/switch.py:smooth_switch", "e3x/nn/functions/damping.py:smooth_damping", "e3x/nn/functions/bernstein.py:_bernstein", "e3x/nn/functions/chebyshev.py:_chebyshev", "e3x/nn/functions/trigonometric.py:sinc", "e3x/nn/functions/mappings.py:reciprocal_mapping", "e3x/nn/activations.py:_gated_linear", "e3x/ops/safe.py:norm", "e3x/ops/safe.py:normalize", "e3x/so3/irreps.py:spherical_harmonics", "e3x/nn/wrappers.py:basis"]}
{"id": "C58", "title": "MultiHeadAttention is NaN exactly at nodes whose neighbours all have cutoff zero", "statement": "With non-negative cutoff values, the output of an attention layer at a node is NaN if at least one edge ends in the node and all edges that end in it have cutoff value zero (0/0 in the normalization of the weights). For all other nodes, including nodes without edges, it is the documented value: no division by zero occurs.", "quantifier": "every configuration, parameters, features, graph in the sparse or dense format (with masked slots), basis functions and non-negative cutoff values", "why_tests_cant": "Depends on the combination of all cutoff values around a node; a test sees NaN only if it contains such a node.", "anchors": ["e3x/nn/modules.py:MultiHeadAttention", "e3x/ops/indexed.py:indexed_softmax"]}
{"id": "C59", "title": "Edges at or beyond the cutoff have no effect", "statement": "Edges whose basis functions are zero (filters without bias, the default) or whose weight is zero may be added to or removed from the edge list of MessagePass without changing its result; the same holds for edges with cutoff value zero in attention layers, at all nodes whose output is not NaN (C58), and for whole networks. With basis functions that use smooth_cutoff or cosine_cutoff of some radius, the result therefore depends only on the edges shorter than the radius: neighbour lists with different skin, order or additional far pairs give the same result.", "quantifier": "every pair of edge lists (sparse, or dense with masked slots) with the same edges inside the cutoff in any order, every configuration, parameters, features, displacement vectors, radius, radial and damping function, and every program of layers", "why_tests_cant": "All graphs, geometries and networks; a test compares a few neighbour lists.", "anchors": ["e3x/nn/modules.py:MessagePass", "e3x/nn/modules.py:MultiHeadAttention", "e3x/nn/wrappers.py:basis", "e3x/nn/functions/cutoff.py:smooth_cutoff", "e3x/nn/functions/cutoff.py:cosine_cutoff"]}
{"id": "C60", "title": "A batch of structures gives the results of the single structures", "statement": "Putting two structures into one batch (node arrays appended, edge lists appended in any order with the node numbers of the second structure increased by the number of nodes of the first) changes nothing: the result of MessagePass, of an attention layer (including which rows are NaN) and of a whole network for the batch consists of the results for the single structures, and an exception is raised for the batch exactly if it is raised for the structures. The edge list of the first structure must not contain padding entries.", "quantifier": "every pair of structures (and by repetition any number), every order of the edges, every configuration, parameters, features, weights, cutoffs and program of layers; sparse format, for MessagePass also dense lists with padding", "why_tests_cant": "All graphs and networks; a leak between structures shows only for particular index values.", "anchors": ["e3x/nn/modules.py:MessagePass", "e3x/nn/modules.py:MultiHeadAttention", "e3x/ops/indexed.py:indexed_sum", "e3x/ops/indexed.py:indexed_softmax", "e3x/ops/indexed.py:gather_src", "e3x/ops/indexed.py:gather_dst"]}
{"id": "C61", "title": "The result in a node depends only on what the node sees of its graph (renumbering, supercells)", "statement": "Let sigma map the nodes of one graph to the nodes of another such that for every node i the edges ending in i correspond one by one to the edges ending in sigma(i), with the same features and corresponding sources. Then the result of MessagePass, of an attention layer (including NaN rows) and of a whole network in node i is the result in node sigma(i), and the same exceptions are raised. Special cases: renumbering nodes, taking one structure out of a batch, and replacing the unit cell of a periodic structure by any supercell.", "quantifier": "every pair of graphs and every covering map between them, every configuration, parameters, features, weights, cutoffs and program of layers; sparse format", "why_tests_cant": "All graphs, all coverings and all networks.", "anchors": ["e3x/nn/modules.py:MessagePass", "e3x/nn/modules.py:MultiHeadAttention", "e3x/ops/indexed.py:indexed_sum", "e3x/ops/indexed.py:indexed_softmax", "e3x/ops/indexed.py:gather_src", "e3x/ops/indexed.py:gather_dst"]}
{"id": "C62", "title": "Predicted energies have the symmetries of physics", "statement": "A model built from the library like the documented example for energies (basis functions of the displacements between atoms, embedded atomic numbers, any program of the library's layers, linear readout of scalars, sum over the atoms of each structure) gives atomic energies that do not change when the structure is shifted, rotated or reflected (any orthogonal matrix); that are renumbered with the atoms; that depend only on the edges shorter than the cutoff radius; the energy of a supercell is a multiple of the energy of the unit cell; the total energy of a structure in a batch is its own energy; exceptions are the same too. The documented example itself raises no exception for any non-empty edge list.", "quantifier": "every structure, graph, orthogonal matrix, shift, covering map, batch; every model of this form (attributes, parameters, number and kind of layers)", "why_tests_cant": "All structures, symmetries, models and parameters.", "anchors": ["docs/source/examples/md17_ethanol.ipynb:MessagePassingModel.energy", "e3x/nn/wrappers.py:basis", "e3x/nn/modules.py:Embed", "e3x/nn/modules.py:MessagePass", "e3x/nn/modules.py:MultiHeadAttention", "e3x/nn/features.py:change_max_degree_or_type", "e3x/nn/features.py:add"]}
{"id": "C63", "title": "Predicted energies are smooth functions of the positions", "statement": "For a model that computes energies from positions with basis(), the layers of the library on a fixed list of edges and a linear readout, whether it raises an exception does not depend on the positions. If it does not, every atomic energy is k times continuously differentiable in the positions wherever the two atoms of each edge are at different positions, provided the activation functions are k times continuously differentiable, the radial, cutoff and damping functions are so at the distances that occur, and attention layers only see atoms with at least one neighbour of positive cutoff value. The md17 example is infinitely often differentiable, in particular where an atom crosses the cutoff radius; models with relu, leaky_relu or relu6 on features of positive degree are not even continuous.", "quantifier": "all models (layers, parameters, activation, radial, cutoff and damping functions), atomic numbers, edge lists and positions, all orders k up to infinity", "why_tests_cant": "Differentiability at every point and of every order cannot be observed in floating-point samples; finite differences only probe a few directions at a few structures and cannot exclude jumps at thresholds or at the cutoff radius.", "anchors": ["docs/source/examples/md17_ethanol.ipynb:MessagePassingModel", "e3x/nn/wrappers.py:basis", "e3x/nn/modules.py:MessagePass", "e3x/nn/modules.py:MultiHeadAttention", "e3x/nn/modules.py:Tensor", "e3x/nn/modules.py:FusedTensor", "e3x/nn/functions/cutoff.py:smooth_cutoff", "e3x/nn/functions/bernstein.py:_bernstein", "e3x/nn/activations.py:relu"]}
{"id": "C64", "title": "Predicted forces are the negative gradient of the energy and obey the laws of mechanics", "statement": "A model that returns energies and forces like the documented example (value_and_grad of minus the sum of the energies of all structures in a batch) returns forces that are the negative gradient of the energy along every motion of the atoms wherever the energy is differentiable; atoms that follow Newton's equations with these forces conserve kinetic plus predicted energy; the forces on all atoms of a call add up to zero and exert no torque; shifting the structure leaves the forces unchanged, rotating or reflecting it rotates or reflects them, renumbering the atoms renumbers them; an atom all of whose edges are longer than the cutoff radius feels no force; every structure in a batch gets exactly the energy and forces that it gets on its own; exceptions are the same too. For the documented example energies and forces exist for all positions and the energy is differentiable wherever the atoms of no edge coincide (up to the thresholds of the radial functions).", "quantifier": "every model of this form (layers, parameters, functions), graph, batch, position, orthogonal matrix, shift, renumbering, differentiable motion", "why_tests_cant": "All positions, motions and models; conservation along trajectories and exact equality of gradients can only be sampled with rounding errors.", "anchors": ["docs/source/examples/md17_ethanol.ipynb:MessagePassingModel.__call__", "docs/source/examples/md17_ethanol.ipynb:MessagePassingModel.energy", "e3x/nn/wrappers.py:basis", "e3x/nn/modules.py:MessagePass"]}
{"id": "C65", "title": "Training and validation data are split, batched and averaged without loss or duplication", "statement": "In the documented training example: the training and validation sets have the requested sizes, no data point in common and none twice, keep energy, forces and positions of a data point together, and the training energies sum to zero after the shift; asking for too many points raises an exception. Preparing batches uses no data point twice, leaves out fewer than batch_size, and keeps every structure connected only with itself, with its own energy, forces, positions and atomic numbers. The predictions for a batch are the energies and forces predicted for its data points one by one. The losses and errors reported for an epoch are the exact means over the batches (an epoch raises an exception exactly if one of its steps does), and those reported for the validation set are the means over all data points used, independent of how the points are distributed over batches. With fewer data points than batch_size zero losses are reported.", "quantifier": "every data set, every random choice and permutation, every batch size, every model of the form of the example, every sequence of optimizer steps", "why_tests_cant": "All data sets, permutations and batch sizes; the running mean and the independence of the batching hold only as exact identities for every number of batches.", "anchors": ["docs/source/examples/md17_ethanol.ipynb:prepare_datasets", "docs/source/examples/md17_ethanol.ipynb:prepare_batches", "docs/source/examples/md17_ethanol.ipynb:mean_squared_loss", "docs/source/examples/md17_ethanol.ipynb:eval_step", "docs/source/examples/md17_ethanol.ipynb:train_model", "e3x/ops/indexed_ops.py:sparse_pairwise_indices"]}
{"id": "C66", "title": "The moment of inertia example predicts symmetric tensors that follow rotations and reflections, and can be exact", "statement": "In the documented regression example: the target function returns the tensor sum of m (|r|^2 1 - r r^T), which is symmetric, nonnegative for nonnegative masses and follows rotations and reflections of the points. The model never raises; its prediction follows every rotation and reflection of the points as a second-order tensor, does not depend on the order of the points, is the sum of the predictions for parts of the structure, and is symmetric for all parameters (setting the irrep of degree 1 to zero changes nothing). With at least two features there are parameters for which it equals the moment of inertia tensor for every number of points, all masses and all positions.", "quantifier": "every parameter value, every number of points, all masses and positions, every orthogonal matrix", "why_tests_cant": "All parameters, structures and rotations; symmetry for all parameters and exactness for all structures are universal statements that sampled predictions cannot settle.", "anchors": ["docs/source/examples/moment_of_inertia.ipynb:calculate_moment_of_inertia_tensor", "docs/source/examples/moment_of_inertia.ipynb:Model", "e3x/nn/modules.py:TensorDense", "e3x/so3/irreps.py:clebsch_gordan"]}
{"id": "C67", "title": "The tetracubes example does not see rotations, and tells mirror images apart only through pseudoscalars", "statement": "In the documented classification example the equivariant model never raises, and its logits do not change when a shape is rotated, shifted or its cubes are listed in another order; hence loss and accuracy of a batch do not change when every shape is moved in its own way. Reflecting a shape is the same as negating the weights of the pseudoscalar features. Without pseudotensors in the last layer the logits of the two screws agree for all parameters, so that accuracy on the eight shapes is at most 7/8 and the mean cross entropy at least log(2)/4. The first tensor product has no pseudoscalars for all parameters, but with two layers there are parameters for which both screws are classified correctly in all positions. The ordinary model sees no shifts, but for some parameters its prediction changes under rotations and reordering.", "quantifier": "every parameter value, every shape (any number of cubes), every orthogonal matrix, shift and order, every batch", "why_tests_cant": "All parameters and rotations: that no parameters distinguish the screws without pseudoscalars is a universal statement, no amount of training shows it.", "anchors": ["docs/source/examples/tetracubes.ipynb:EquivariantModel", "docs/source/examples/tetracubes.ipynb:OrdinaryModel", "docs/source/examples/tetracubes.ipynb:eval_step", "e3x/nn/modules.py:TensorDense"]}
{"id": "C68", "title": "Exchanging the two inputs of a coupling multiplies it by (-1)^(l1+l2+l3); scalars, dot and cross product have the documented values", "statement": "The Clebsch-Gordan coefficients with the first two degrees exchanged are those in the original order times (-1)^(l1+l2+l3). Hence coupling irreps of one degree with themselves gives zero in odd degrees, and a Tensor layer applied to exchanged inputs with the correspondingly exchanged kernel (including these signs) raises or returns exactly as for the original inputs, with the same output. Coupling with the scalar 1 changes nothing. Coupling two vectors gives their dot product divided by sqrt(3) and their cross product divided by sqrt(2).", "quantifier": "every combination of degrees, both component orders, every valid cache state, every kernel, configuration and input", "why_tests_cant": "All degrees: the symmetry is an identity between alternating sums of factorials for every l1, l2, l3.", "anchors": ["e3x/so3/irreps.py:clebsch_gordan", "e3x/so3/_symbolic.py:_clebsch_gordan", "e3x/nn/modules.py:Tensor"]}
{"id": "C69", "title": "General Cartesian tensors are built from irreps uniquely and consistently with rotations and reflections", "statement": "The documented recipe for tensors of degree 2 and 3, and its continuation to every degree n: irreps for all coupling paths are contracted with the Clebsch-Gordan coefficients along their path and summed. Every tensor with n indices is obtained from exactly one family of irreps (2l+1 numbers for each path ending with l, 3^n in total), with the same sum of squares. Rotating all irreps with the Wigner-D matrix rotates the tensor in all indices; reflecting the features used keeps a matrix and changes the sign of a tensor of degree 3. In a matrix the irreps of degree 0, 1, 2 contribute a multiple of the identity, the antisymmetric matrix of the cross product, and a symmetric matrix of trace zero; the matrix is symmetric exactly if the irrep of degree 1 vanishes and has trace zero exactly if the scalar vanishes.", "quantifier": "every degree n, every tensor, every family of irreps and features, every rotation, every valid cache state", "why_tests_cant": "All degrees, tensors and rotations; uniqueness is a statement about all families of irreps.", "anchors": ["docs/source/constructing_cartesian_tensors.rst", "e3x/so3/irreps.py:clebsch_gordan", "e3x/nn/features.py:rotate", "e3x/nn/features.py:reflect"]}
{"id": "C70", "title": "The choice of the order of irreps changes nothing but the order; mixing the two orders breaks equivariance", "statement": "There is exactly one correspondence between the positions of the two orders of irreps that keeps degree and order of every component, and it is a bijection. Computed with the other order, spherical harmonics, Wigner-D matrices, Clebsch-Gordan coefficients and basis functions hold the same numbers at the corresponding positions (with the same exceptions). Every network built from the layers of the library returns the reordered arrays if its inputs and basis functions are reordered and the coefficients for the other order are used; energies of every energy model and the logits of the tetracubes example do not depend on the order at all. As the documentation warns, mixing the orders leads to results which are not equivariant: rotating features with the Wigner-D matrix for the other order, or a tensor layer whose inputs use different orders.", "quantifier": "every program, parameter, input, degree, radial, cutoff and damping function, every valid cache state; mixing: every maximum degree from 1 (Wigner-D), a concrete layer", "why_tests_cant": "Tests compare the two orders for a few degrees and functions; the claim is about all networks, parameters and inputs.", "anchors": ["docs/source/pitfalls.rst", "e3x/config.py:Config.set_cartesian_order", "e3x/so3/irreps.py:spherical_harmonics", "e3x/so3/irreps.py:wigner_d", "e3x/so3/irreps.py:clebsch_gordan", "e3x/nn/wrappers.py:basis", "e3x/nn/modules.py:Tensor"]}
{"id": "C71", "title": "The irreps of the library are irreducible and pairwise inequivalent", "statement": "The components of degree l of a feature transform among themselves under the matrices returned by wigner_d. No subspace of them, except zero and everything, is mapped to itself by all rotations. A linear map between components of different degrees that respects all rotations is zero; between components of the same degree it multiplies all components by the same factor (and every factor is allowed).", "quantifier": "every degree, both component orders, every valid cache state; every subspace, every linear map, every rotation", "why_tests_cant": "The statement is about all subspaces and all linear maps for all degrees, and needs all rotations as hypotheses.", "anchors": ["e3x/so3/irreps.py:wigner_d", "docs/source/overview.rst"]}
{"id": "C72", "title": "Dense layers are exactly the affine maps, Tensor layers exactly the bilinear maps, that respect rotations and reflections", "statement": "Every affine map between feature arrays (of any maximum degrees and types) that respects all rotations and the reflection is a Dense layer with a bias, followed by change_max_degree_or_type; conversely all of these are such maps. In particular components of one degree must be multiplied by a common factor, and a bias can only be added to scalars of even parity. Every bilinear map of two feature arrays that treats the features separately and respects rotations and the reflection is a Tensor layer for some kernel, followed by change_max_degree_or_type.", "quantifier": "every affine (bilinear) map; every maximum degree, type and number of features of inputs and output; both component orders", "why_tests_cant": "The claim is that nothing is missing: it quantifies over all maps that respect the symmetries, not only those that can be built from the library.", "anchors": ["e3x/nn/modules.py:Dense", "e3x/nn/modules.py:Tensor", "e3x/nn/features.py:change_max_degree_or_type", "docs/source/overview.rst"]}
{"id": "C73", "title": "Functions applied component by component: only multiplications for degree 1 and higher, only odd functions for pseudoscalars", "statement": "A function applied to each component of irreps of degree one or more respects all rotations exactly if it is the multiplication by a constant. A function applied to pseudoscalars respects the reflection exactly if it is odd, whatever function is applied to scalars.", "quantifier": "every function from real numbers to real numbers, every degree, both component orders, every number of features", "why_tests_cant": "All functions and all degrees; the hypothesis quantifies over all rotations.", "anchors": ["e3x/nn/activations.py:_gated_linear", "e3x/nn/features.py:rotate", "e3x/nn/features.py:reflect", "docs/source/overview.rst"]}
{"id": "C74", "title": "Tensor layers preserve the variance of features at initialisation", "statement": "If the components of both inputs of a Tensor layer have mean zero and unit variance and are not correlated, and the kernel is drawn by tensor_variance_scaling with mode fan_in independently of the inputs, then every component of the output has mean zero and variance scale (1 for tensor_lecun_normal, the default, and 2 for tensor_he_normal), no matter how many degrees, parities and components contribute; components which no coupling reaches are zero. The constants which the initialisers use for this are right: numbers from the uniform distribution are scaled to variance one, and 0.87962566103423978 is the standard deviation of the normal distribution truncated to (-2, 2), up to 1e-16.", "quantifier": "every probability space and all random inputs and draws with these properties, all maximum degrees, types, numbers of features and output options, every scale and distribution, both component orders", "why_tests_cant": "A statement about expectation values for all sizes; sampling gives estimates for a few sizes only.", "anchors": ["e3x/nn/initializers.py:tensor_variance_scaling", "e3x/nn/initializers.py:_random_array", "e3x/nn/initializers.py:_compute_tensor_fans_and_mask", "e3x/nn/modules.py:Tensor"]}
{"id": "C75", "title": "The quadrature rules integrate polynomials over the sphere", "statement": "The points r and weights w returned by lebedev_quadrature(precision=p) (p <= 131) and delley_quadrature(precision=p) (p <= 101) integrate every polynomial in x, y, z of degree at most p over the unit sphere: 4 pi sum_j w_j f(r_j) equals the integral of f, up to the rounding errors of the stored numbers. With num=n, the returned grid has at most n points, as many as possible, and integrates all polynomials up to the precision listed for it.", "quantifier": "all requested precisions and numbers of points, all 50 shipped grids, all polynomials of the given degree, all rounding errors of the points and weights up to a given size", "why_tests_cant": "There are infinitely many polynomials, and the grids must be right for every degree up to 131; a test can only try a few functions on a few grids.", "anchors": ["e3x/so3/quadrature.py:lebedev_quadrature", "e3x/so3/quadrature.py:delley_quadrature", "e3x/so3/_lebedev_grids.npz", "e3x/so3/_delley_grids.npz"]}
{"id": "C76", "title": "Norms do not overflow in floating-point arithmetic", "statement": "Computed in float32, float64 or bfloat16, with every operation rounded, ops.norm of a vector with n finite entries is finite and has a relative error of at most 2(n+2) unit roundoffs whenever its norm is representable, although the squares of its entries may not be (the textbook formula then returns infinity); the entries of ops.normalize are accurate to 3(n+3) unit roundoffs if the squared norm is a normal number. In a batch this holds for every vector whose norm exceeds a fixed fraction (2^-39 in float32) of the largest entry of the whole batch. Vectors smaller than that by many orders of magnitude are lost: their computed norm is zero and normalize returns them unchanged.", "quantifier": "all floating-point formats with enough exponent range, with or without flushing of subnormal numbers, all batches of vectors of all lengths, all orders of summation", "why_tests_cant": "The error bound must hold for all numbers of a format and all orders in which a compiler may add the squares; overflow and underflow happen only at the edges of the range.", "anchors": ["e3x/ops/safe.py:norm", "e3x/ops/safe.py:normalize", "e3x/ops/safe.py:normalize_and_return_norm"]}
{"id": "C77", "title": "The softmax does not overflow in floating-point arithmetic", "statement": "Computed in float32, float64 or bfloat16, with every operation rounded, indexed_softmax returns finite non-negative numbers for all finite inputs, however large, and each differs from the exact softmax of its segment by at most 36n unit roundoffs, where n is the number of entries of the segment. With a multiplicative mask (weights between 0 and 1), the bound is 42n/v unit roundoffs if the weighted sum of exponentials is at least v times the exponential of the largest input of the segment, masked or not. If the weights of all entries near the largest input are zero, there is no such bound: the softmax of (0, 200) with mask (1, 0) is (1, 0), but the computed values are NaN in float32.", "quantifier": "all floating-point formats with enough exponent range, with or without flushing of subnormal numbers, all segments of all sizes, all finite inputs and weights, all orders of summation, all implementations of exp which are accurate to four units in the last place", "why_tests_cant": "The error bound must hold for all numbers of a format and all orders in which a compiler may add the exponentials; overflow and underflow happen only for extreme inputs.", "anchors": ["e3x/ops/indexed.py:indexed_softmax", "e3x/ops/indexed.py:indexed_max", "e3x/ops/indexed.py:indexed_sum"]}
{"id": "C78", "title": "The cutoff function is accurate and exactly zero beyond the cutoff in floating-point arithmetic", "statement": "Computed in float32, float64 or bfloat16, with every operation rounded, smooth_cutoff(x, c) is a finite non-negative number for every distance x >= 0 and every cutoff c > 0, within 32 unit roundoffs of the documented function (also near the cutoff, where the formula divides by a difference that cancels), and exactly zero for all x >= c, including infinity. Where x is NaN it is zero too. A cutoff <= 0 raises ValueError.", "quantifier": "all floating-point formats with enough exponent range, with or without flushing of subnormal numbers, all numbers x of the format, all cutoffs, all implementations of exp which are accurate to four units in the last place", "why_tests_cant": "There are billions of floating-point numbers for each cutoff; division by zero or overflow could happen only for the few numbers next to the cutoff.", "anchors": ["e3x/nn/functions/cutoff.py:smooth_cutoff"]}
{"id": "C79", "title": "Layers are accurate, and equivariant up to rounding, in floating-point arithmetic", "statement": "Dense, Tensor, FusedTensor and MessagePass, computed in floating-point arithmetic, differ from the exact layer by at most a bound that is proportional to the unit roundoff, to the number of roundings and to the layer evaluated at the absolute values of all entries; this holds in whichever order the compiler evaluates and adds the products, fused or not. Hence rotating the input and then applying the layer gives the rotated output up to these rounding errors, and the results are finite as long as the terms stay below the overflow threshold.", "quantifier": "all floating-point formats, all evaluation orders (including fused multiply-add), all configurations, parameters, inputs, rounded Clebsch-Gordan coefficients and rotations, and for MessagePass all graphs", "why_tests_cant": "A test compares one compiled order for a few inputs with a tolerance chosen by hand; which order is used depends on the compiler, the device and the shapes.", "anchors": ["e3x/nn/modules.py:Dense", "e3x/nn/modules.py:Tensor", "e3x/nn/modules.py:FusedTensor", "e3x/nn/modules.py:MessagePass"]}
{"id": "C80", "title": "The shipped table of spherical harmonics holds the right coefficients", "statement": "On a new installation, whatever is requested afterwards (any degrees in any order, with caches configured, saves failing, processes killed and files removed), the table of spherical harmonics lists the monomials in the documented order and every coefficient agrees with the exact one up to a relative error of 2^-52; no coefficient is missing and none is spurious. Hence spherical_harmonics and solid_harmonics with the shipped table differ from the exact functions by at most 2^-52 sqrt(binomial(2l, l)/2^l) |r|^l times the constant of the normalisation, for every vector.", "quantifier": "all 816 monomials and 256 harmonics of the shipped archive, all histories, all requested degrees (also above 15), all vectors, normalisations and orders", "why_tests_cant": "The archive is an opaque binary file; the tests compare a few values of low degree, and a wrong coefficient of high degree only shows for vectors that are not tested.", "anchors": ["e3x/so3/_spherical_harmonics_lut.npz", "e3x/so3/_spherical_harmonics_lut.py:_generate_spherical_harmonics_lookup_table", "e3x/so3/_symbolic.py:_spherical_harmonics", "e3x/so3/irreps.py:spherical_harmonics", "e3x/so3/irreps.py:solid_harmonics"]}
{"id": "C81", "title": "Negative entries of index lists", "statement": "Nothing rejects negative entries of index lists. Reading with the index -k reads the k-th entry from the end (the first entry if k exceeds the number of entries). In sparse lists an edge with a negative destination is ignored by all reductions and by message passing, and -1 in dst_idx acts as padding in attention layers too: the results (and exceptions) are those for the list in which these destinations are replaced by an index beyond the last segment. In dense lists -1 is not padding: it cannot be distinguished from the index of the last node, from which an edge is added. Converting a sparse list to a dense one drops the edges with negative destinations (and raises an exception if no other edges exist and no padding index is given), converting a dense list to a sparse one keeps negative entries.", "quantifier": "all numbers of nodes, features, index lists of integers in both formats, masks, weights, basis functions, numbers of segments, padding indices and layer parameters", "why_tests_cant": "The rules concern every list of integers; padding with -1 gives a plausible but wrong result in one of the two formats only, and tests use non-negative indices.", "anchors": ["e3x/ops/indexed.py: gather_src, gather_dst, indexed_sum, indexed_max, indexed_softmax, dense_to_sparse_indices, sparse_to_dense_indices", "e3x/nn/modules.py: MessagePass, MultiHeadAttention, SelfAttention"]}
{"id": "C82", "title": "The shipped tensor-conversion matrices are right", "statement": "Every number of the archive with the matrices for irreps_to_tensor and tensor_to_irreps (degrees 0 to 15) agrees with the exact value up to a relative error of 2^-52, and the archive has the same zeros. After any history that starts with the installed package, both functions therefore use matrices with this accuracy: converting irreps to tensors and back returns the irreps up to 2^-46 times their largest component, and converting traceless symmetric tensors to irreps and back returns them up to 2^-45 times their largest entry.", "quantifier": "all entries of the archive; all degrees, batches, arrays, orderings, normalisations and histories of requests, cache settings, crashes and removed files", "why_tests_cant": "Tests regenerate or compare a few degrees with tolerances; the archive has thousands of numbers, and an error in one of them only shows for some inputs.", "anchors": ["e3x/so3/_tensor_conversion_lut.npz", "e3x/so3/irreps.py: irreps_to_tensor, tensor_to_irreps", "e3x/so3/_tensor_conversion_lut.py"]}
{"id": "C83", "title": "Spherical harmonics are orthogonal on the quadrature grids", "statement": "For the points r and weights w of lebedev_quadrature(precision=2*L) (L <= 65) or delley_quadrature(precision=2*L) (L <= 50) and Y = spherical_harmonics(r, L, r_is_normalized=True), the sums 4 pi sum_n w[n] Y[n, i] Y[n, j] are zero for i != j and the documented constant of the normalisation for i = j, and the coefficients of every function which is a combination of the harmonics up to degree L are recovered from its values on the grid as 4 pi sum_n w[n] f(r[n]) Y[n, i] divided by that constant, up to an explicit multiple of the rounding errors of the stored points and weights.", "quantifier": "all degrees, pairs of components, coefficients, orderings, normalisations, grids with sufficient precision and rounding errors of the stored numbers up to a given size", "why_tests_cant": "The number of pairs grows with the fourth power of the degree and the functions form a continuum; a test checks some of them for a few degrees.", "anchors": ["e3x/so3/quadrature.py:lebedev_quadrature", "e3x/so3/quadrature.py:delley_quadrature", "e3x/so3/irreps.py:spherical_harmonics"]}
{"id": "C84", "title": "Spherical harmonics are accurate in floating-point arithmetic", "statement": "In every floating-point format and every order in which the compiler evaluates the powers, products and sums (fused or not), each component of spherical_harmonics(r, L, r_is_normalized=True), computed with a lookup table and a normalisation constant of given accuracy, is finite if no bound of its factors exceeds the largest finite number, and differs from the exact one by at most a small multiple of the unit roundoff, relative to the largest value of a harmonic of this degree: n = L + d + 6 roundings, where d is the depth of the sums. The table of the package has relative errors of at most 2^-52 after every history. In float32, for degrees up to 4 and vectors of length at most one, the error is at most 1e-5.", "quantifier": "all formats, degrees, components, orderings, normalisations, vectors, orders of evaluation, lookup tables with errors up to a given size, and histories", "why_tests_cant": "Tests compare a few vectors with tolerances on one machine; orders of evaluation depend on compiler and hardware.", "anchors": ["e3x/so3/irreps.py:spherical_harmonics", "e3x/so3/_common.py:_integer_powers"]}
{"id": "C85", "title": "Variance of FusedTensor layers at initialisation", "statement": "If the inputs of a newly initialised FusedTensor layer are independent standard random numbers, every output has mean zero and variance at most one if an input contains pseudotensors, and at most two otherwise. Scalar outputs have variance exactly one (pseudoscalars zero if no input contains pseudotensors). All outputs up to the larger input degree have variance exactly one if that degree is even and an input contains pseudotensors, if both inputs have the same even maximum degree and no pseudotensors (except pseudoscalars), or if one input has maximum degree zero. In general the variance is not preserved: for vectors at maximum degree one it is 11/16 with pseudotensors, and 3/8 for pseudovectors without.", "quantifier": "all degrees, features, configurations with and without pseudotensors, orderings, and all distributions of inputs and initial parameters which are independent and standardised", "why_tests_cant": "A test can estimate the variance for a few sizes from random samples only; the statement is about all sizes and distributions, and exact.", "anchors": ["e3x/nn/modules.py:FusedTensor", "e3x/nn/initializers.py:fused_tensor_normal", "e3x/nn/initializers.py:fused_tensor_uniform"]}
{"id": "C86", "title": "Spherical harmonics of vectors of any length are accurate in floating-point arithmetic", "statement": "spherical_harmonics(r, L), which normalises the vectors itself, is accurate in every floating-point format and order of evaluation: each component is finite and differs from the exact harmonic of the direction of r by a small multiple of the unit roundoff, relative to the largest value of a harmonic of this degree, provided the vector is neither too small nor too large nor much smaller than the largest coordinate in the batch. In float32, for degrees up to 4 and lengths between 2^-20 and 2^18, the error is at most 2e-5. The last condition is necessary: a vector which is smaller than another one in the batch by a large factor is not normalised, and its harmonics are those of the vector itself instead of its direction.", "quantifier": "all formats, batches of vectors, degrees, components, orderings, normalisations, orders of evaluation, and lookup tables with errors up to a given size", "why_tests_cant": "Tests compare a few vectors with tolerances on one machine; that one row of a batch spoils another only shows for extreme inputs.", "anchors": ["e3x/so3/irreps.py:spherical_harmonics", "e3x/ops/safe.py:normalize", "e3x/ops/safe.py:normalize_and_return_norm"]}
{"id": "C87", "title": "Random rotations of full strength are uniformly distributed", "statement": "With perturbation >= 1 the rotation returned by so3.random_rotation is uniformly distributed on SO(3): for every fixed rotation Q, Q R and R Q have the same distribution as R; in particular the image of any point of the sphere has a height above any plane through the origin that is uniform on [-1, 1] ('any point on the sphere is rotated to any other point with equal probability'). For every perturbation the distribution does not prefer a direction: Q R Q^T has the distribution of R. The documented statement for perturbation = 0.5 is false: a point stays in its hemisphere, but is not uniformly distributed there (its mean height is at least 1/3 + 8/(9 pi) > 0.61 instead of 1/2).", "quantifier": "every strength, every fixed rotation, every measurable event, every pair of unit vectors and every height; the draws range over three independent uniform real numbers", "why_tests_cant": "A distribution on a continuous group cannot be established from finitely many samples, and invariance must hold for every event and every rotation.", "anchors": ["e3x/so3/rotations.py:random_rotation"]}
{"id": "C88", "title": "Averages over random rotations: orthogonality of Wigner-D matrices and data augmentation", "statement": "With random_rotation of full strength and wigner_d: the mean of the product of two entries of the Wigner-D matrix is zero unless they are the same entry, and 1/(2l+1) for an entry of degree l; randomly rotated features keep the mean of their scalar component, all other components have mean zero, different components are uncorrelated, and components of one degree have the same variance. Averaging any bounded measurable model over randomly rotated inputs, with the predictions rotated back, gives an exactly equivariant model.", "quantifier": "every strength >= 1, maximum degree, order convention, pair of entries, features, model (bounded and measurable), positions of any number of points, and rotation", "why_tests_cant": "The statements are about exact means over a continuous distribution; samples only give estimates with statistical errors.", "anchors": ["e3x/so3/rotations.py:random_rotation", "e3x/so3/rotations.py:wigner_d"]}
{"id": "C89", "title": "Feature utilities on whole arrays: what is accepted, and every batch entry on its own", "statement": "rotate, reflect, change_max_degree_or_type and add work on arrays with any number of batch axes. Exactly the shapes (..., 1 or 2, k*k, F) are accepted; rotate needs one Wigner-D matrix of the right size or one for each batch entry; add needs at least one input, equal batch shapes, feature counts and dtypes. Everything else raises ValueError (IndexError for add without inputs or when the first input that does not fit is zero-dimensional). For accepted inputs the shape of the result is the documented one and every component of every batch entry is the documented function of the components of the same batch entry. A negative max_degree m is not rejected by change_max_degree_or_type unless the type changes: the first (m+1)**2 components are kept.", "quantifier": "all arrays of any rank, shape and entries; all target degrees and types; all lists of inputs of add with any dtypes", "why_tests_cant": "The shapes, ranks, numbers of inputs and orders of wrong inputs are unbounded; tests use a few batch shapes and one wrong input at a time.", "anchors": ["e3x/nn/features.py: _extract_max_degree_and_check_shape", "e3x/nn/features.py: rotate", "e3x/nn/features.py: reflect", "e3x/nn/features.py: change_max_degree_or_type", "e3x/nn/features.py: add"]}
{"id": "C90", "title": "Weights of a message passing step may have any shape that broadcasts, and act as documented", "statement": "The argument weights of MessagePass may have any shape that can be broadcast to the gathered inputs, in both index formats; the result is that of giving the broadcast weight for every entry. If the weights are the same for all components of an edge (extent one in axes -2 and -3), the documented formula m[i] = sum of w[ij] tensor(x[j], f[ij]) holds and the layer is equivariant under rotations and reflections. If weights and gathered inputs have no common broadcast shape, ValueError is raised. The documented ValueError for weights which cannot be broadcast to the gathered inputs is not always raised: weights with more parity channels, degrees or features than the inputs are accepted where the inputs have extent one, the entries of the inputs are copied to the new channels, and the result is not equivariant (scalars get a nonzero pseudoscalar).", "quantifier": "all weights of any rank and shape, node features, basis functions, edge lists in both formats, parameters and symmetry operations", "why_tests_cant": "Tests use one shape of weights; the combinations of ranks and stretched axes, and the inputs for which a wrong shape passes the check, are not enumerable.", "anchors": ["e3x/nn/modules.py: MessagePass.__call__", "e3x/util.py: is_broadcastable", "e3x/ops/indexed.py: gather_src"]}
{"id": "C91", "title": "Programs that share a disk cache of lookup tables never get a wrong table", "statement": "If any number of processes use the same cache files at the same time, with any interleaving of their reads, computations and writes, with failing writes and with processes killed at any point, every request that finishes returns exactly the specified table, raises ValueError for a negative degree, or raises because it met an incomplete file; it never returns a wrong table, and it never waits for another process. Processes without a configured cache are never affected. If the files already contain all requested degrees, or if each file is protected by a lock while it is read and while it is written, all answers are right and files stay valid. The code takes no locks, and without them sharing a cache is not safe: a process that reads while another one writes raises, overlapping writes can leave a damaged file with which all later requests raise, and a process with a smaller degree can replace a table with a larger degree.", "quantifier": "all four kinds of tables, any number of processes, requested degrees, cache paths, file contents, schedules of steps and failures", "why_tests_cant": "Depends on the interleaving of several processes, which tests neither control nor enumerate.", "anchors": ["e3x/so3/_lookup_table_generation_utility.py: _load_lookup_table_from_disk, _save_lookup_table_to_disk", "e3x/so3/_clebsch_gordan_lut.py: _generate_clebsch_gordan_lookup_table", "e3x/so3/_spherical_harmonics_lut.py: _generate_spherical_harmonics_lookup_table", "e3x/config.py: Config"]}
{"id": "C92", "title": "Embeddings of arrays of integers", "statement": "Embed maps an integer array of any shape to scalar features of shape (..., 1, 1, features). Each integer is mapped to its own row of the parameters, wherever it stands and whatever else the array contains; other types raise ValueError. Integers outside of the documented range [0, n) never raise: negative ones down to -n get the features of the rows counted from the end (padding with -1 looks like the last element), all others give NaN; the result is free of NaN exactly if all integers are in [-n, n). Embedded integers are invariant under rotations and reflections.", "quantifier": "all parameters, sizes, integer arrays of any shape and values", "why_tests_cant": "Tests embed a few integers in range; the claim is about all shapes, all integers and all parameters.", "anchors": ["e3x/nn/modules.py: Embed"]}
{"id": "C93", "title": "Lookup tables generated by several processes, and in advance", "statement": "The lookup tables do not depend on the number of processes that compute them, nor on the order in which these finish: for all four kinds of tables the extension of a table is the same as the one computed sequentially. In particular each Wigner-D entry is computed from the polynomials of its own degree and orders, though these are found by their position in a list that starts at the first missing degree. After a table of degree L was generated from the command line with a path, every program with this path as its cache gets the specified table for every degree up to L without computing or writing anything; without a path, the same is true for programs without a cache. If the file in the package is damaged, the command without a path raises and does not repair it; if the package already has the degree, the command with a path does not create the file.", "quantifier": "all numbers of processes, all orders in which the chunks of work finish, all degrees, all valid states of the cache files", "why_tests_cant": "Tests run one schedule; the claim is about all schedules, numbers of processes, degrees and states of the files.", "anchors": ["e3x/so3/_clebsch_gordan_lut.py: _generate_clebsch_gordan_lookup_table, __main__", "e3x/so3/_spherical_harmonics_lut.py: _generate_spherical_harmonics_lookup_table, __main__", "e3x/so3/_wigner_d_lut.py: _generate_wigner_d_lookup_table, __main__", "e3x/so3/_tensor_conversion_lut.py: _generate_tensor_conversion_lookup_table, __main__"]}
{"id": "C94", "title": "Random complex parameters have the requested variance", "statement": "With a complex dtype the initializers give kernels that are zero for forbidden couplings and random for allowed ones, with mean zero and circular. For the uniform and the normal distribution the variance is the requested scale / fan, and uniform parameters are at most sqrt(2) standard deviations long. For the truncated normal distribution the variance is 1.01866 times the requested one: the constant in the code is not the standard deviation of the truncated distribution, as the density was not normalised after the truncation. Other distributions raise ValueError.", "quantifier": "all shapes, modes, scales, variances, averages over all draws", "why_tests_cant": "Tests estimate variances from samples, with an error above 1%, and do not use complex dtypes; the claim is about exact averages.", "anchors": ["e3x/nn/initializers.py: _random_array, tensor_variance_scaling"]}
{"id": "C95", "title": "The maximum degree only cuts off", "statement": "Results for a smaller maximum degree are the lower degrees of those for a larger one: solid and spherical harmonics and Wigner-D matrices of degree K are the leading part of those of degree L; Dense layers, activation functions, rotations and reflections commute with change_max_degree_or_type, whether degrees are cut off or filled with zeros; a Tensor layer with max_degree K and the same parameters gives the lower degrees of the one with max_degree L, and inputs filled with zeros give the same result, unless one of the inputs consists of scalars without pseudotensors (then the result changes its type). For FusedTensor this is true as long as the largest of the degrees does not change; in general it is false: the product of two scalars changes by a factor of 1/sqrt(3) if the inputs are filled with zeros for degree one.", "quantifier": "all features, degrees, parameters, inputs", "why_tests_cant": "Tests compare single degrees and shapes; the claim is about all degrees, inputs and parameters.", "anchors": ["e3x/nn/modules.py: Dense, Tensor, FusedTensor", "e3x/nn/features.py: change_max_degree_or_type, rotate, reflect", "e3x/nn/activations.py", "e3x/so3/irreps.py: solid_harmonics, spherical_harmonics", "e3x/so3/rotations.py: wigner_d"]}
{"id": "C96", "title": "Message passing steps add up", "statement": "Edges can be handled in parts: if an edge list (or every row of an adjacency list) is split in two, MessagePass for all edges gives the sum of its results for the parts, so an edge that is listed twice counts twice, and raises an exception iff it does for the parts; a node without incoming edges gets zeros. For given edges and parameters MessagePass is linear in the features of the nodes, with either tensor product and any weights, and without a bias for the filters it is linear in the basis functions; with a bias it is not, since edges whose basis functions are all zero still send messages.", "quantifier": "all graphs, partitions of their edges, features, weights, basis functions, parameters, coefficients", "why_tests_cant": "Tests sum over single small graphs; the claim is about every way to split any list of edges, and all real factors.", "anchors": ["e3x/nn/modules.py: MessagePass, _Conv, Tensor, FusedTensor", "e3x/ops/indexed.py: indexed_sum"]}
{"id": "C97", "title": "Attention averages over the edges of a node", "statement": "MultiHeadAttention forms weighted averages, not sums: listing every edge several times changes nothing; if all neighbours of a node have the same features (and values are used without positional encoding), the result is that of the value and output layers for these features; multiplying the cutoff values of all edges into a node by a common factor changes nothing. As a consequence, the result in a node with a single neighbour does not depend on the queries, keys, relative positional encodings of queries and keys, their parameters, or on the cutoff value of that edge, as long as it is not zero: cutoffs do not damp the message of the last neighbour. If the query layer gives zero, the result is the output layer applied to the mean of the values of the neighbours weighted with the cutoff values.", "quantifier": "all graphs, features, parameters, numbers of copies, factors, configurations", "why_tests_cant": "Tests use single graphs with fixed cutoffs; the claim is about all graphs, parameters and cutoff values.", "anchors": ["e3x/nn/modules.py: MultiHeadAttention", "e3x/ops/indexed.py: indexed_softmax"]}
{"id": "C98", "title": "The heads of attention layers are independent", "statement": "In MultiHeadAttention, what a head contributes depends only on the parameters of this head: if the output layer reads only the features of head h, two layers which agree in the parameters of head h give the same results for all inputs. The parameters of head h are those of the query, key and positional encoding features h, h + H, h + 2 H, ... (H = num_heads), but those of the h-th block of consecutive value features and, with positional encoding of the values, of filter features. So the features that decide how strongly a head attends are not those that it collects: with two heads and four features, query and key feature 1 have no influence on what is collected in feature 1.", "quantifier": "all graphs, features, parameters, numbers of heads and features", "why_tests_cant": "Independence of parameters is a claim about all pairs of parameter sets and all inputs.", "anchors": ["e3x/nn/modules.py: MultiHeadAttention"]}
{"id": "C99", "title": "Tensor products and message passing treat every feature on its own", "statement": "Tensor, FusedTensor and MessagePass do not mix features: choosing any features (in any order, with repetitions) from the inputs, the weights and the parameters, and then applying the layer, gives the chosen features of the result of the layer. In particular, what a message passing step puts into a feature of a node depends only on the same feature of the other nodes; only Dense layers mix features.", "quantifier": "all inputs, parameters, graphs in both index formats, choices of features", "why_tests_cant": "The claim is about all choices of features and all parameters, and about the absence of an influence.", "anchors": ["e3x/nn/modules.py: Tensor, FusedTensor, _Conv, MessagePass"]}
{"id": "C100", "title": "Redundant parameters of attention layers", "statement": "In MultiHeadAttention without relative positional encoding of queries and keys, the bias of the key layer has no effect: neither its values nor switching key_use_bias on or off changes the result for any input. (It adds the same number to the dot products of all neighbours of a node, and the softmax does not see common shifts.) With such an encoding it can change the result. Multiplying the parameters of the queries by non-zero factors, one for every parity, degree and feature, and dividing those of the keys by the same factors, changes nothing, with or without positional encodings. Without relative positional encoding of the values, a bias of the values can be replaced: on every node that receives at least one edge, the layer gives the same as the layer without that bias whose output bias is increased by the output layer's image of it (edges with positive cutoff values). A node that receives no edge gets the output bias in its even scalar features and zeros elsewhere, whatever its own features. Without positional encoding of the values, multiplying the parameters of the values by such factors and dividing the kernels of the output layer by them changes nothing either.", "quantifier": "all graphs, features, parameters, biases, factors", "why_tests_cant": "The absence of an influence is a claim about all parameters and inputs.", "anchors": ["e3x/nn/modules.py: MultiHeadAttention (key_use_bias, value_use_bias, output_use_bias)", "e3x/ops/indexed.py: indexed_softmax"]}
