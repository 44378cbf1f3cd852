# Formal model of google-research/e3x in Lean 4

## 1. Layout

* `properties.jsonl` – the properties (C01 …), in terms of the public API.
* `lean/Verif/Model/*.lean` – the model: one Lean definition per Python function,
  each with a comment citing `file:lines` in `/repo/e3x` and naming every simplification.
* `lean/Verif/Spec/*.lean` – small specifications that mention no model helper.
* `lean/Verif/Lemmas/*.lean` – helper lemmas.
* `lean/Verif/Props/*.lean` – the property theorems (named after the property, e.g.
  `E3x.C12_dense_rotation_equivariant`), each followed by `example`s showing that a concrete,
  non-trivial case meets the hypotheses.
* `MANIFEST.json` – status per property and exact theorem names.
* `seeded/LOG.jsonl` – wrong-program experiments (section 5).

## 2. Modelling conventions (apply everywhere)

1. **Numbers.** Floating-point arrays are modelled over the reals `ℝ` (occasionally over an
   arbitrary commutative ring or field). Rounding, overflow, NaN and infinities are not modelled, except
   in the model of differentiation (C57, `Model/Autodiff.lean`), where a division by zero, a logarithm or the derivative
   of a square root at 0 etc. give `none`, and `none` spreads through arithmetic as NaN does, and in the model of
   floating-point arithmetic (C76 to C79, `Model/FloatArith.lean`), where every operation is rounded. That model of the hardware
   (IEEE 754 with or without flushing of subnormal results, no signed zeros, fused multiply-add only in C79) is trusted.
   Machine constants (`finfo.tiny`, `eps`, `epsneg`) are kept as positive real parameters, so that
   every threshold branch of the code is still present in the model and covered by the theorems.
   Where the code is only approximately right because of such a threshold, the theorem either
   excludes the branch explicitly or bounds it; this is said beside the theorem.
2. **Arrays.** An axis of an array is a function of a natural-number index together with its extent
   (`ℕ → α` and a size); values outside the extent are never read by the model (sums run over
   `Finset.range extent`) and theorems only speak about in-range indices. The trailing three axes of a
   feature array are `(parity, degree/order, feature)`. Leading batch axes (`...` in the
   code) act pointwise, so one batch element is modelled, except where the batch axis takes part in
   the computation (index lists, message passing), where it is explicit. `ops/indexed.py` is also modelled on
   arrays of any rank (`NDArray`: shape and entries in row-major order), with `reshape`, `expand_dims`, `take`,
   `vmap`, masked reduction and `segment_*` as modelled primitives (`Model/Arrays.lean`).
3. **Exceptions** are values: `Except Err α` with one constructor per Python exception type.
4. **Randomness** (JAX PRNG) is a parameter: the uniform draws are arguments, theorems hold for all.
5. **Parameters of layers** (kernels, biases) are arguments, theorems hold for all.
6. **Lookup tables**: the table contents are defined by the mathematical formula the generator code
   evaluates (sympy is trusted to do exact polynomial arithmetic; sympy's `CG` is modelled by
   Racah's explicit formula that it implements).
7. **JAX indexing**: gathers clamp out-of-range indices and wrap negative ones; scatter
   (`.at[].set`, `segment_*`) drops out-of-range indices.
8. **Differentiation** (C57): scalar expressions with the reverse-mode program for each primitive. Which primitives
   a function uses, both branches of every `jnp.where` and the hand-written derivatives (`jax.custom_jvp`) are modelled;
   arrays are written out elementwise.
9. **Not modelled**: `_wigner_d_euler` (so3/rotations.py:328-370), which nothing calls; `_print_cache_usage_information`, which only logs; jit/tracing, vectorised differentiation rules, sharing of subexpressions,
   dtypes promotion, precision flags, logging, plotting, multiprocessing (a map over chunks that finish in any order, see C93).

## 3. Trusted base

* Lean 4.33.0 kernel, Mathlib (as installed). Axioms: only `propext`, `Classical.choice`, `Quot.sound`.
* The reading of the Python source recorded in the model's citation comments.
* Conventions of section 2; NumPy/JAX/sympy/Flax primitives behave as documented.
* No axiom is declared, no `sorry`, no `native_decide`/`bv_decide`.

## 4. Plan per property

| id | modelled | proof idea |
|---|---|---|
| C01 | `dense_pairwise_indices`, `sparse_pairwise_indices` on lists (tile/repeat/delete/reshape) | arithmetic of the deleted positions `k(num+1)`; list induction |
| C02 | both conversions on lists of lists (batch, padding, errors) and, with reshape and stack, on arrays of any rank | list induction; filter/concat lemmas; row-major index arithmetic |
| C03 | `_indexed_reduce` dense (where-masked fold) and sparse (segment fold), for one batch entry and for arrays of any rank | sums over filtered lists / `Finset`; permutation invariance |
| C04 | `indexed_softmax` both formats | positivity of exp, `div_self`, shift cancels |
| C05 | `_determine_index_type` and argument checks as decision logic | case analysis, iff |
| C06 | `is_broadcastable` | induction on reversed shapes vs. existence of broadcast shape |
| C07 | `_extract_max_degree_and_check_shape` | `Nat.sqrt` characterisation |
| C08, C09 | `change_max_degree_or_type`, `add` | case analysis on channels; component semantics spec |
| C10, C11 | `rotate`, `reflect`, masks | finite sums |
| C12 | `Dense` | block-diagonal matrices commute with per-degree scalars |
| C13 | `_gated_linear` and the gate of each activation | algebra, real analysis |
| C14–C17 | `Tensor` (mixed and separated paths), `FusedTensor`, `TensorDense` | equivariance from C30; parity by sign bookkeeping |
| C18, C19 | `_Conv`, `MessagePass`, `MultiHeadAttention` (C19 reads 0/0 as 0; see C58); `Spec/AttentionLogit.lean`: the dot products in terms of components and parameters | linearity, permutation of finite sums |
| C20, C21 | `_common.py` | bijection lemmas, counting by induction |
| C22–C25 | `rotations.py` | trigonometric/ring identities |
| C26 | `_spherical_harmonics` over `MvPolynomial (Fin 3) ℝ` | explicit coefficient recurrence |
| C27, C28 | `_wigner_d` table as scaled Fischer product `⟨Y_m, Y_m'∘R⟩` | harmonic polynomials of degree l have dimension ≤ 2l+1, `Y_lm` orthonormal, Fischer product is O(3)-invariant |
| C29, C30 | `_clebsch_gordan` with Racah's formula | selection rules by cases; equivariance by the SL(2) generating function |
| C31, C32 | `_tensor_conversion_lut.py` and the tensor conversions of `irreps.py` (Model/TensorConversion) | the detraced tensor is `κ ∑ Y_m(r) T_m` by the addition theorem, where `T_m` are the coefficient tensors of the harmonics; independence of the `Y_m` gives the two inverses; symmetric traceless tensors are spanned by the `T_m` because contraction with the detraced tensor is evaluation of the polynomial; the Wigner-D matrices give rotations; array indices and axis permutations are followed explicitly |
| C33–C35 | load/extend/compress/save as a state machine over a disk state | invariant over histories |
| C36 | `Config` state machine with import-time default binding | invariant; negation witness |
| C37 | `_load_grid` selection | list induction |
| C38, C39 | `matmat.py` | counting, induction over the loops |
| C40 | fans and masks | counting |
| C41 | `safe.py` | real analysis |
| C42 | `basis` | from C27 |
| C43–C47, C51, C52 | `nn/functions/*` | real analysis |
| C48 | inductive type of networks | induction |
| C49, C50 | normalisation, scaling | algebra |
| C53 | `evaluate_derivatives` | induction over the order |
| C54 | `gather_src`, `gather_dst`, `_gather_dense`, `_gather_sparse` on arrays of any rank (reshape, vmap, take) | row-major index arithmetic |
| C55 | as C29 | the generating function of the coefficients (C30) in the Bargmann pairing of polynomials in four variables: multiplication by the bracket is adjoint to Cayley's omega operator; completeness because the matrix is square |
| C56 | as C26 (`Spec/Sphere.lean`: surface integral in spherical coordinates, Legendre polynomials) | Wallis recursions for monomials, hence an integration by parts rule for polynomials; harmonic polynomials are orthogonal to lower degrees, and equal degrees reduce to the product in which C28 is proved; addition theorem by rotating one vector to the pole |
| C57 | expressions with `jnp.where` and custom derivatives, the expression reverse mode produces from them (`Model/Autodiff.lean`), the functions of e3x operation by operation (`Model/Gradients.lean`) | `Regular` expressions (no singular operation in any branch) stay regular under reverse mode, so all derivatives are finite; near a point an expression agrees with its selected branches, whose derivatives are computed exactly; flatness at the ends of the support from C43, C44, C51 |
| C58 | `Model/Checked.lean`: attention with rows that are NaN (`none`) where a weight of an edge divides by zero | the denominators are `exp(-max)` times the sum of `cut * exp(logit)`, positive unless all cutoffs are zero; all other rows are those of C19 |
| C59 | as C18, C19, C42, C48, C58 (`Spec/Locality.lean`: edges that contribute nothing, programs equal up to such edges) | messages of such edges are zero, weights do not change; induction over programs |
| C60 | as C18, C19, C48, C58 (`Spec/Batch.lean`: joined arrays and edge lists) | what arrives in a node depends only on its edges and the features at their ends; induction over programs |
| C61 | as C60 (`Spec/Covering.lean`: covering maps of graphs, pulled back arrays) | as C60, with a covering in place of the offset; induction over programs |
| C62 | `Model/Energy.lean`: docs/source/examples/md17_ethanol.ipynb (`MessagePassingModel.energy`, steps 1 to 6) and all models of the same form (any list of layers); `Spec/Energy.lean` | shifts cancel in the displacements; rotations and reflections: C42 for the basis functions, C48 for the layers, C27, C28, C30 for the tables; coverings, batches, supercells: C61; cutoff: C59; the example: induction over the iterations |
| C63 | as C62; arrays as functions of the positions (`Lemmas/Smooth.lean`), `Spec/EnergySmooth.lean` | every layer maps entries that are `k` times continuously differentiable to such entries (polynomials, gates, softmax with positive denominator); basis functions are smooth where the displacement is not zero; exceptions depend on extents only; induction over the layers. The example satisfies the hypotheses; `relu`, `leaky_relu`, `relu6` are proved to jump |
| C64 | `Model/Forces.lean`: docs/source/examples/md17_ethanol.ipynb (`MessagePassingModel.__call__`, end of `energy`); the gradient with respect to the positions is the mathematical derivative (that reverse mode computes it is C57, not repeated for whole models); `Spec/Forces.lean` | chain rule along curves; invariance (C62) differentiated along shifts, plane rotations and relabelled structures; C62 for batches: the proxy is a sum of functions of disjoint sets of atoms; C63 for differentiability |
| C65 | `Model/Training.lean`: docs/source/examples/md17_ethanol.ipynb (`prepare_datasets`, `prepare_batches`, the losses, `eval_step`, the loops of `train_model`); results of the random number generator are arguments, `train_step` (adam, gradients with respect to the parameters) is an arbitrary function of parameters, optimizer state and batch; `Spec/Training.lean` | list lemmas for reshape, tile and repeat; C01 for the edges; C64 (batches) for the predictions; induction over the batches for the running means |
| C66 | `Model/Inertia.lean`: docs/source/examples/moment_of_inertia.ipynb (`calculate_moment_of_inertia_tensor`, `Model`), one structure; `Spec/Inertia.lean` | point by point: C12, C17 for the layers, C30 for the contraction with Clebsch-Gordan coefficients; symmetry from the reflections that fix a point; exactness by explicit parameters, with the coefficients of degrees 0 and 1 found from their invariance under signed permutations of the axes and C55 |
| C67 | `Model/Tetracubes.lean`: docs/source/examples/tetracubes.ipynb (the shapes, `OrdinaryModel`, `EquivariantModel`, `mean_cross_entropy_loss`, `calculate_accuracy`, `eval_step`); `Spec/Tetracubes.lean` | C42 for the harmonics, C17 and C30 for the layers; reflections: inversion times rotation; bound on the accuracy: equal logits have the same argmax; separation: explicit parameters that compute a triple product summed over the cubes |
| C68 | nothing new: `clebschGordan` (C29 to C32, C55) and `tensor` (C15); `Spec/Exchange.lean` | reindexing the alternating sum of `_clebsch_gordan`; scalars and vectors: values of the coefficients of degrees 0 and 1 |
| C69 | `Model/CartesianTensors.lean`: docs/source/constructing_cartesian_tensors.rst (tensors of degrees 2 and 3, and the continuation to degree `n` announced in line 299); `Spec/CartesianTensors.lean` | induction over the coupling path with completeness and orthonormality of the coefficients (C55) and their equivariance (C30); degrees 2 and 3 as special cases; parts of a matrix from C68 |
| C70 | no new model; `Spec/Reorder.lean`: the correspondence between the two orders (docs/source/pitfalls.rst:6-51) and arrays with reordered components | closed forms of the cached functions (C26-C30, C33, C42); the correspondence is an orthogonal block-diagonal matrix that carries one coefficient table into the other, and the induction over layers (C48) is done for such maps between two tables; concrete rotations for the mixed orders |
| C71 | no new model; `Spec/Irreducible.lean`: maps and subspaces that respect the matrices returned by `wigner_d` (docs/source/overview.rst:126-150) | Schur's lemma for the Wigner-D matrices, proved from the spherical harmonics: an intertwiner turns the harmonics into functions of the same degree, evaluated at the pole after a rotation about the z-axis; irreducibility by the orthogonal projection to the subspace |
| C72 | no new model; `Spec/Irreducible.lean`: affine and bilinear maps of feature arrays by their coefficients, and equivariance under `rotate` and `reflect` (docs/source/overview.rst:320-460) | Schur's lemma (C71) on the coefficients; for bilinear maps after contraction with the Clebsch-Gordan coefficients, which are complete (C55); parities from the reflection; closed forms of `dense`, `tensor`, `changeMaxDegreeOrType` (C12, C15, C08) |
| C73 | functions applied to single components (docs/source/overview.rst:326-335) | rotations about the z-axis multiply one component by every number between -1 and 1 (intermediate value theorem) |
| C74 | no new model: `tensor` (C15) and `tensorVarianceScaling` (C40) with random arguments on a probability space; `Spec/Variance.lean`: mean zero, unit variance, not correlated. The distributions of the random number generator are hypotheses | second moments of a bilinear form with independent coefficients; squares of the coefficients of one path add up to one (C55), the number of paths is the fan (C40); constants: integrals, Taylor polynomials as bounds |
| C75 | the content of the two data files (`Model/QuadratureGrid.lean`, `QuadratureLebedev.lean`, `QuadratureDelley.lean`): one point and one weight per orbit of the symmetry group of the cube, as integers over 2⁷⁰, written by `tools/quadrature_tables.py`. The script expands the orbits again and compares with the files: the Delley grids are equal to the table, the coordinates in the Lebedev file are within 5·10⁻¹⁵ of it (this comparison is outside Lean). The theorems hold for every grid within `δ` of the table, in any order, so they also cover the conversion to float32 | `Spec/QuadratureError.lean`, `Spec/Sphere.lean`. The moments of all even monomials with sorted exponents are bounded by a computation on natural numbers which the kernel evaluates (`Lemmas/QuadratureCheck.lean`: powers rounded to 2⁻⁶⁴ and packed into large numbers; proved correct in `Lemmas/QuadratureMoments.lean`); all other monomials follow by symmetry, all polynomials by linearity (`Lemmas/QuadratureGrid.lean`). The error is measured relative to the sum of the absolute values of the coefficients, because the stored numbers are rounded; for very high degrees this is a weak norm |
| C76 | IEEE floating-point numbers with rounding to nearest even, overflow, gradual underflow or flushing (`Model/FloatArith.lean`); `norm` and `normalize_and_return_norm` with every operation rounded, for every order of summation (a binary tree) (`Model/SafeFloat.lean`) | `Spec/FloatArith.lean` (which formats have enough exponent range). Standard error analysis: relative error of each operation, absolute error of underflowing squares, absorbed by the largest one. `C76_lost` and `C76_batch` prove that the scale `a`, the largest entry of the *whole batch*, makes vectors much smaller than it vanish: the docstring's claim of stability holds for single vectors, not for batches with a large dynamic range |
| C77 | `indexed_softmax` for one segment with every operation rounded (`Model/SoftmaxFloat.lean`, on top of `Model/FloatArith.lean`); the implementation of `exp` is a parameter | `Spec/SoftmaxFloat.lean`: accuracy of `exp` (a hypothesis; the correctly rounded function satisfies it, `accurateExp_exp`), the exact softmax. Error analysis as for C76; the rounding of the difference to the maximum is harmless because `t exp(-t)` is bounded. `C77_lost`, `C77_nan`: the maximum is taken over entries with weight zero too, so a masked entry with a large input makes the others underflow and the result NaN (with a correctly rounded `exp`) |
| C78 | `smooth_cutoff` with every operation rounded (`Model/CutoffFloat.lean`); `exp` is a parameter | `Spec/CutoffFloat.lean`: the documented formula. Numbers below one are at most `1 - unit`, so the difference `1 - x²` is at least `unit` and never zero; `exp(1 - 1/s)` has slope at most 3, so the cancellation is harmless. `C78_special`: NaN distances give zero |
| C79 | Arithmetic expressions over the entries of all arrays with additions, multiplications and fused multiply-adds, evaluated exactly or with every operation rounded; the entries of `Dense`, `Tensor`, `FusedTensor` and `MessagePass` as functions of the arrays (`Model/FloatLayers.lean`). `precision` flags are not modelled | `Spec/FloatLayers.lean`: an expression evaluates an entry if both agree for all real numbers; the error bound uses the exact layer at absolute values. Induction over expressions; existence of an evaluation (`C79_*_evaluation`) by following the layers, equivariance from C11, C12, C13 and C16. For `MessagePass` the evaluation is shown to exist for sparse index lists |
| C80 | the content of so3/_spherical_harmonics_lut.npz, every float64 number written exactly (`Model/ShippedHarmonics.lean`, generated from the archive) | the exact coefficient of `xᵃ yᵇ zᶜ` in a harmonic is `√R z / 2ˡ` with a fraction `R` and an integer `z` given by finite sums of binomial coefficients; comparing it with a float64 number is a comparison of integers, which the kernel evaluates for every entry (this is not a sample: it covers the whole table). The archive is then the exact table of slightly different polynomials, so that C33 applies to every history; the error of the values by the Cauchy-Schwarz inequality for the Fischer product. The conversion of exact values to float64 above degree 15 is not modelled |
| C81 | Model/SignedIndices.lean: the gather, reduce, softmax and conversion functions and the layers for index lists of integers; JAX indexing counts negative indices from the end, segment reductions drop them. | Each function is shown to equal the model for non-negative lists after the translation `Spec.naturalArgs`; the conversions by induction over the list of edges or rows. |
| C82 | the content of so3/_tensor_conversion_lut.npz, every float64 number written exactly (`Model/ShippedTensors.lean`, generated from the archive) | the exact matrices are those of C31; a certificate (`Lemmas/TensorCertificate.lean`) gives each row as `√R` times integers and the inverse matrix as fractions, the kernel checks that the integer polynomials are harmonic with the right leading terms, that the two matrices are inverse, and that every float64 number of the archive is close to the certified value (the whole archive, no sample). Histories as in C80; the round trips by summing the absolute values of the products of the two matrices, again checked by the kernel for every degree of the archive |
| C83 | nothing new: the grids of C75 and `spherical_harmonics` as in C56 | the product of two harmonics is a polynomial whose degree is at most the sum of their degrees, so C75 applies; its integral is that of C56; the sum of the absolute values of its coefficients is bounded with the Fischer norm (at most `√6` to the power of the sum of the degrees). This bound grows with the degree, so that the error is only small as long as `6^L` times the rounding errors is |
| C84 | `Model/HarmonicsFloat.lean`: the expressions which compute a component (products of ones and coordinates in any order, three powers per monomial, table entry times constant, sums in any order, fused or not), evaluated with the rounded table and constant | error analysis of C79 with the number of roundings counted per entry (vectors are exact); the sum of the absolute values of the terms by the Fischer norm (C80); overflow from a bound of all factors. The normalisation of the vector (`r_is_normalized=False`) is in C86 |
| C85 | `Model/FusedInit.lean`: the variances `var_in`, `var_out` and masks which FusedTensor computes, the initialiser arrays and all eight kernels; `Spec/FusedVariance.lean`: a layer at initialisation with independent standardised inputs and parameters | the outputs' second moment is a sum over pairs of degrees of the strength of the fused coupling block; the block is computed with the orthonormal matrix basis (Schur's lemma), which gives the strengths in closed form. The random number generator itself is not modelled: the draws are any independent random variables with the mean and variance of the chosen distribution |
| C86 | `Model/DirectionFloat.lean`: the normalisation of C76 followed by the harmonics of C84 | C76 gives the direction with componentwise relative errors; monomials are monotone in absolute values, so their errors are bounded by those of positive vectors, and the sum by the Fischer norm. `C86_lost` shows what happens to vectors which are not normalised |
| C87 | The random generator is idealised as three independent real numbers, uniform on [0, 1) (`Spec/RandomRotation.lean`); `randomRotation` is the model of C25. The drawn quaternion is shown to be uniform on the three-dimensional sphere by comparing it with the volume of the four-dimensional ball in two pairs of polar coordinates; multiplication of rotations is an orthogonal map of the quaternions, which preserves the volume. The 0.5 case follows from the mean trace. | `C87_uniform`, `C87_points`, `C87_isotropic`, `C87_half`, `C87_hemisphere` (the last one refutes the documentation for perturbation = 0.5). Not modelled: rounding, and the finite resolution of the pseudo-random generator. |
| C88 | `randomRotation` (C25, C87) and `wignerD` (C28); `Spec/RotationAverage.lean` | the mean of the products, as a matrix of two of its four indices, commutes with all Wigner-D matrices because the distribution is invariant (C87); Schur's lemma (C71) gives the Kronecker symbols, the orthogonality of the matrices the factor `1/(2l+1)`. `C88_products`, `C88_mean`, `C88_features`, `C88_augmentation` |
| C89 | nn/features.py on arrays of any rank (Model/FeatureArrays.lean): slices, pads, concatenation of degree blocks and parity channels, loops of in-place updates, the checks of `add` in order | shapes and entries of each array operation for arrays of shape `(*batch, s, n, F)`; a block position lemma for `jnp.concatenate`; exact acceptance conditions and kinds of errors; refinement to the model of one batch index (Model/Features.lean) |
| C90 | the argument `weights` of MessagePass before broadcasting (Model/MessageWeights.lean): check with `is_broadcastable`, extents and entries of the product; weights with more axes than the gathered inputs are a `ValueError` in the model (simplification) | broadcast shape and entry lemmas reduce to Model/Message.lean, then C18; wide weights: equality with the step on copied inputs, and a concrete witness that equivariance fails |
| C91 | requests of concurrent processes as state machines with the steps read, compute and open (truncate), write and close, over shared files (Model/ConcurrentCache.lean); a schedule is any list of steps. Reading is one step; overlapping writes give a complete or an unreadable file, never a readable wrong one (simplification: zip checksums) | invariants over all schedules; a request that runs alone is `generateLookupTable` (refinement to C33-C35); negations by concrete schedules for every generator and degree |
| C92 | `Embed.setup` and `Embed.__call__` on arrays of any shape and any integers (Model/Embed.lean); `jnp.take` with its default mode is part of the trusted base, NaN is `none` | row-major index lemmas; rotation and reflection by C89 |
| C93 | the generators with `num_processes` and the command line programs (Model/WorkerPool.lean); `mp.Pool.map` is modelled as chunks that finish in any order (trusted base) | induction over the order in which chunks finish; positions of degrees and orders by induction over degrees; files by the invariants of C33 |
| C94 | `_random_array` and `tensor_variance_scaling` for complex dtypes (Model/ComplexInit.lean); the two samplers imported from JAX, written with uniform numbers, are part of the trusted base | integrals over radius and angle; Taylor bounds of exp(-4); fans by C40 |
| C95 | no new definitions: layers and functions as modelled for C08, C12-C16, C26, C28 (Model/Dense.lean, Model/Tensor.lean, Model/Features.lean, Model/Irreps.lean) | from the exact descriptions of their components (C08, C12, C15, C16); the counterexample for FusedTensor uses the coefficients of C68 |
| C96 | no new definitions: `messagePass` as modelled for C18 (Model/Message.lean) | from the description of the result as a sum over edges (C18), and bilinearity of the products of C15 and C16 |
| C97 | no new definitions: `attention` as modelled for C19 (Model/Message.lean) | from the description of the result by normalised weights (C19), and homogeneity of the tensor products (C96) |
| C98 | no new definitions: `attention` as modelled for C19 (Model/Message.lean); `Spec/Heads.lean`: parameters of a head | from the description of the result in C19: every output feature of a dense layer depends on its own columns only |
| C99 | no new definitions: `anyTensor`, `messagePass` (Model/Tensor.lean, Model/Message.lean); `Spec/Channels.lean`: chosen features | entry by entry for tensor products; messages of edges and their sums by C18 |
| C100 | no new definitions: `attention` as modelled for C19 (Model/Message.lean) | the dot products (C19_logit) change by a number that depends on the node only; shift invariance of the softmax (C04); scales of queries and keys cancel in every product; the weights of a node add up to one (C19_normalised), so a bias of the values passes through the mean |

## 5. Wrong-program experiments

Seeded edits of the model in a scratch copy are logged in `seeded/LOG.jsonl`.

