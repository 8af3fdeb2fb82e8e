{"id": "C01", "title": "Space construction accepts exactly the consistent inputs", "statement": "Space(matrix, id2row, id2column, row2id, column2id, element_shape=..) succeeds iff the row (and, when any column label is given, column) labels are distinct, the supplied dictionaries are exactly the inverse of the label lists, the label counts equal the matrix dimensions and the element shape multiplies to the number of columns; otherwise it raises ValueError (IndexError when a supplied dictionary maps to an index out of range). In an accepted space row2id and id2row (column2id and id2column) are mutually inverse.", "quantifier": "every matrix shape, every pair of label lists, every optional user supplied dictionary (including negative Python indices) and element shape", "why_tests_cant": "the check relates two independent data structures of arbitrary size; tests only try a handful of lists", "anchors": ["src/composes/semantic_space/space.py:Space.__init__", "src/composes/utils/space_utils.py:list2dict", "src/composes/utils/space_utils.py:assert_dict_match_list", "src/composes/utils/space_utils.py:assert_shape_consistent"]}
{"id": "C02", "title": "Every reachable space is well formed", "statement": "After any finite sequence of successful API calls (construct with non-negative positions in any supplied dictionary, apply any transformation, vstack, to_dense, to_sparse, build a peripheral space, add_rows) every space object has distinct row labels, row2id inverse to id2row, column maps either empty or inverse to each other with one label per column, as many rows as labels, and an element shape whose product is the number of columns.", "quantifier": "every finite history of API calls on any number of spaces, with any arguments and any outcome of the numerical back ends", "why_tests_cant": "histories are unbounded and combine freely", "anchors": ["src/composes/semantic_space/space.py:Space", "src/composes/semantic_space/peripheral_space.py:PeripheralSpace"]}
{"id": "C03", "title": "get_row / get_rows return the vectors of the words asked for", "statement": "In a well formed space get_row(w) is the matrix row at the position of w in id2row, get_rows(ws) is the matrix whose i-th row is get_row(ws[i]) (repetitions and any order allowed), and both raise KeyError exactly when some word is not in the space.", "quantifier": "every well formed space with at least one column, dense or sparse, every word and every non-empty word list", "why_tests_cant": "all words, orders and repetitions", "anchors": ["src/composes/semantic_space/space.py:Space.get_row", "src/composes/semantic_space/space.py:Space.get_rows"]}
{"id": "C04", "title": "Space.vstack keeps every word attached to its own vector", "statement": "vstack(s1, s2) succeeds iff the column labels and the column counts agree and no row label occurs in both; then the row labels are those of s1 followed by those of s2 and looking up any word yields the same vector as in the space it came from, whatever the dense/sparse types; a mismatch or a shared row label raises ValueError.", "quantifier": "every pair of well formed spaces with non-empty matrices, of any type and size, whose row dictionaries hold non-negative positions (as in every space built without supplying one)", "why_tests_cant": "relates lookups before and after for all words", "anchors": ["src/composes/semantic_space/space.py:Space.vstack", "src/composes/utils/space_utils.py:add_items_to_dict", "src/composes/utils/matrix_utils.py:get_type_of_largest", "src/composes/utils/matrix_utils.py:resolve_type_conflict"]}
{"id": "C05", "title": "apply preserves row labels, records exactly one operation and keeps column labels aligned", "statement": "space.apply(t) returns a space with the same row labels in the same order and with its operation list extended by exactly one applied operation; scalings keep the column labels, dimensionality reductions drop them, feature selection keeps for every remaining column the label that column had before. The source space is not modified.", "quantifier": "every well formed space and every transformation, any outcome of SVD/NMF", "why_tests_cant": "label/column alignment must hold for every matrix", "anchors": ["src/composes/semantic_space/space.py:Space.apply", "src/composes/semantic_space/operation.py"]}
{"id": "C06", "title": "Conversions between dense and sparse never change a value", "statement": "to_dense, to_sparse, resolve_type_conflict and to_compatible_matrix_types return matrices with the same shape and entries as their inputs; resolve_type_conflict returns matrices all of one type, and it changes nothing when there is no conflict.", "quantifier": "every matrix list, every type assignment", "why_tests_cant": "all matrices", "anchors": ["src/composes/semantic_space/space.py:Space.to_dense", "src/composes/semantic_space/space.py:Space.to_sparse", "src/composes/utils/matrix_utils.py:resolve_type_conflict", "src/composes/utils/matrix_utils.py:to_compatible_matrix_types", "src/composes/utils/matrix_utils.py:get_type_of_largest"]}
{"id": "C07", "title": "set_cooccurrence_matrix accepts a replacement matrix of the right shape", "statement": "Replacing the matrix of a well formed space by one of the same shape succeeds and the new matrix is used; a matrix with a different number of rows raises ValueError.", "quantifier": "every well formed space and replacement matrix", "why_tests_cant": "the failing combinations depend on the relation of two sizes", "anchors": ["src/composes/semantic_space/space.py:Space.set_cooccurrence_matrix", "src/composes/utils/space_utils.py:assert_shape_consistent"]}
{"id": "C08", "title": "get_sim and get_sims on missing words", "statement": "get_sim(w1, w2, sim) returns 0.0 when either word is missing from its space and otherwise exactly the measure applied to the two row vectors, independent of dense/sparse types; get_sims(pairs) is the pointwise list of get_sim in input order and of the same length.", "quantifier": "every pair of spaces, every word pair list, every measure", "why_tests_cant": "all words / lists", "anchors": ["src/composes/semantic_space/space.py:Space.get_sim", "src/composes/semantic_space/space.py:Space.get_sims"]}
{"id": "C09", "title": "get_neighbours returns the true top-n list", "statement": "get_neighbours(w, n, sim) returns min(n, number of rows) entries (none for n <= 0); they are distinct rows, ordered by non-increasing similarity with ties in row order, and no row left out is more similar than one returned. An unknown word raises KeyError.", "quantifier": "every space, optional second space, word, n (any integer) and measure", "why_tests_cant": "sorting correctness on arbitrary data", "anchors": ["src/composes/semantic_space/space.py:Space.get_neighbours", "src/composes/matrix/matrix.py:Matrix.sorted_permutation"]}
{"id": "C10", "title": "get_neighbours scores equal get_sim scores", "statement": "Every (neighbour, score) pair returned by get_neighbours(w, n, sim, space2) satisfies score = get_sim(w, neighbour, sim, space2).", "quantifier": "every space pair, word, n, all four measures, all type combinations", "why_tests_cant": "two different code paths (batched and pairwise) must agree on all vectors", "anchors": ["src/composes/semantic_space/space.py:Space.get_neighbours", "src/composes/semantic_space/space.py:Space.get_sim", "src/composes/similarity/similarity.py", "src/composes/similarity/cos.py"]}
{"id": "C11", "title": "Batched similarity equals pairwise similarity", "statement": "For each of cosine, dot product, Euclidean and Lin, entry i of get_sims_to_matrix(v, M) equals get_sim(v, M[i]).", "quantifier": "every vector and matrix with the same number of columns, dense or sparse, zero rows included", "why_tests_cant": "different formulas, all inputs", "anchors": ["src/composes/similarity/similarity.py", "src/composes/similarity/cos.py", "src/composes/similarity/dot_prod.py"]}
{"id": "C12", "title": "sorted_permutation is a stable descending sort", "statement": "sorted_permutation returns a permutation of all row/column indices whose keys are non-increasing and which keeps the original order among equal keys.", "quantifier": "every key array", "why_tests_cant": "all arrays", "anchors": ["src/composes/matrix/matrix.py:Matrix.sorted_permutation"]}
{"id": "C13", "title": "Cosine similarity is a bounded symmetric scale-free score", "statement": "Cosine similarity is symmetric, lies in [-1,1], is 0 when a vector is zero, is 1 of a non-zero vector with itself, and does not change when either vector is multiplied by a positive number; it is the inner product divided by the product of the lengths otherwise.", "quantifier": "all real vectors of any length", "why_tests_cant": "an inequality over all vectors (Cauchy-Schwarz)", "anchors": ["src/composes/similarity/cos.py"]}
{"id": "C14", "title": "Euclidean similarity", "statement": "Euclidean similarity equals 1/(1+distance), is symmetric, lies in (0,1], equals 1 iff the vectors are equal, and decreases strictly with the distance.", "quantifier": "all real vectors", "why_tests_cant": "all vectors", "anchors": ["src/composes/similarity/euclidean.py"]}
{"id": "C15", "title": "Lin similarity follows its documented formula", "statement": "Lin similarity is the sum of u_i+v_i over the components where both vectors are strictly positive divided by the sum of all components of both vectors (0 if that sum is 0); on non-negative vectors it lies in [0,1] and is symmetric.", "quantifier": "all real vectors", "why_tests_cant": "the documented index set differs from the computed one only on special sign patterns", "anchors": ["src/composes/similarity/lin.py", "src/composes/matrix/dense_matrix.py:DenseMatrix.to_ones", "src/composes/matrix/sparse_matrix.py:SparseMatrix.to_ones"]}
{"id": "C16", "title": "EPMI/PPMI/PLMI compute the documented formulas", "statement": "On a non-negative matrix with total T, EPMI gives x*T/(rowsum*colsum) (0 where x is 0, including all-zero rows and columns, no division by zero), PPMI gives max(0, log EPMI), PLMI gives count times PPMI; a matrix with a negative entry is rejected with ValueError.", "quantifier": "every non-negative matrix of any shape, dense or sparse", "why_tests_cant": "all matrices incl. zero rows/columns", "anchors": ["src/composes/transformation/scaling/epmi_weighting.py", "src/composes/transformation/scaling/ppmi_weighting.py", "src/composes/transformation/scaling/plmi_weighting.py", "src/composes/utils/py_matrix_utils.py:nonzero_invert"]}
{"id": "C17", "title": "plog is max(0, log x) with 0 for x<1", "statement": "Plog weighting maps each x>=1 to log x and every other entry to 0, so the result is non-negative, and leaves the input matrix unchanged.", "quantifier": "all real matrices", "why_tests_cant": "all inputs, both representations", "anchors": ["src/composes/transformation/scaling/plog_weighting.py", "src/composes/matrix/dense_matrix.py:DenseMatrix.plog", "src/composes/matrix/sparse_matrix.py:SparseMatrix.plog"]}
{"id": "C18", "title": "RowNormalization makes non-zero rows unit length / unit sum", "statement": "After row normalization each row whose length (sum) was non-zero has length (sum) exactly 1 and is a scalar multiple of the original; all-zero-length (zero-sum) rows become zero rows; with the length criterion the operation is idempotent.", "quantifier": "all real matrices", "why_tests_cant": "all inputs", "anchors": ["src/composes/transformation/scaling/row_normalization.py"]}
{"id": "C19", "title": "Normalization makes the whole matrix sum / length 1", "statement": "After Normalization the sum (Euclidean length) of all entries is 1 when it was non-zero before, otherwise the matrix is returned unchanged.", "quantifier": "all real matrices", "why_tests_cant": "all inputs", "anchors": ["src/composes/transformation/scaling/normalization.py"]}
{"id": "C20", "title": "TopFeatureSelection keeps the best k columns", "statement": "TopFeatureSelection(k) keeps exactly min(k, number of columns) distinct columns, in non-increasing order of the criterion (sum or length) with ties in column order, no dropped column scores higher than a kept one, and the kept columns are copied unchanged; k<=0 is rejected.", "quantifier": "all matrices, k, criteria", "why_tests_cant": "all inputs", "anchors": ["src/composes/transformation/feature_selection/top_feature_selection.py", "src/composes/matrix/matrix.py:Matrix.sorted_permutation"]}
{"id": "C21", "title": "SVD reduction returns at most k dimensions and M*V equals the reduced matrix", "statement": "Given any correct SVD from the numerical library, the reduced matrix has min(k, rank) columns (dense; min(k, dimensions returned) sparse), multiplying the original matrix by the stored transformation matrix gives exactly the reduced matrix, and if k >= rank all row inner products of the original are preserved; reducing to dimension 0 is rejected.", "quantifier": "all matrices, k, all valid SVDs (any sign choice)", "why_tests_cant": "sign ambiguity and truncation, all matrices", "anchors": ["src/composes/matrix/linalg.py:Linalg.svd", "src/composes/transformation/dim_reduction/svd.py", "src/composes/semantic_space/operation.py:DimensionalityReductionOperation"]}
{"id": "C22", "title": "NMF factors are non-negative and of the requested shape", "statement": "For a non-negative matrix, any random initialisation and any behaviour of the time limit, both factors computed by NMF have only non-negative entries and shapes (rows,k) and (k,columns); a matrix with a negative entry is rejected with ValueError.", "quantifier": "all matrices, k, random draws, time-outs", "why_tests_cant": "iterative algorithm, all runs", "anchors": ["src/composes/matrix/linalg.py:Linalg.nmf", "src/composes/matrix/linalg.py:Linalg._nmf_nlssubprob", "src/composes/transformation/dim_reduction/nmf.py"]}
{"id": "C23", "title": "NMF never makes the reconstruction error worse than the initialisation", "statement": "The squared reconstruction error ||X-WH||^2 of the factors NMF returns is at most that of its initial factors, and never increases from one half-iteration to the next.", "quantifier": "all matrices and initialisations, any stopping time, any closeness test", "why_tests_cant": "a monotonicity claim about every iteration of a line search", "anchors": ["src/composes/matrix/linalg.py:Linalg.nmf", "src/composes/matrix/linalg.py:Linalg._nmf_nlssubprob"]}
{"id": "C24", "title": "Peripheral projection of core rows reproduces the core rows", "statement": "If a core space is obtained from a raw space by any sequence of scalings, feature selections and SVD reductions, then building a peripheral space from any selection of raw core rows gives exactly the corresponding rows of the core space's matrix.", "quantifier": "all raw spaces, all sequences of transformations (any length), all row selections", "why_tests_cant": "unbounded transformation sequences", "anchors": ["src/composes/semantic_space/peripheral_space.py:PeripheralSpace._project_core_operations", "src/composes/semantic_space/operation.py"]}
{"id": "C25", "title": "Peripheral rows are independent of batching", "statement": "Building a peripheral space from some rows and then calling add_rows with more rows gives the same space as building it from all rows at once, for any split into batches.", "quantifier": "all core spaces, matrices, splits", "why_tests_cant": "all histories of add_rows", "anchors": ["src/composes/semantic_space/peripheral_space.py:PeripheralSpace.__init__", "src/composes/semantic_space/peripheral_space.py:PeripheralSpace.add_rows", "src/composes/semantic_space/operation.py"]}
{"id": "C26", "title": "A peripheral space has the column labels of its core", "statement": "For a core space produced by any sequence of apply calls from a raw space, a peripheral space built on it has the same column labels, the same number of columns, and the same list of operations.", "quantifier": "all histories of apply", "why_tests_cant": "unbounded sequences", "anchors": ["src/composes/semantic_space/peripheral_space.py:PeripheralSpace._project_core_operations", "src/composes/semantic_space/space.py:Space.apply"]}
{"id": "C27", "title": "Operations must be applied once before being projected", "statement": "Projecting an operation that was never applied raises IllegalStateError, applying an operation a second time raises IllegalStateError, and after one application projection does not change the stored state.", "quantifier": "all operations and call sequences", "why_tests_cant": "call orders", "anchors": ["src/composes/semantic_space/operation.py"]}
{"id": "C28", "title": "A failed add_rows leaves the peripheral space unchanged", "statement": "If add_rows raises (duplicate labels, wrong number of labels, incompatible matrix) the space still answers every query as before.", "quantifier": "all spaces and arguments", "why_tests_cant": "every failure point", "anchors": ["src/composes/semantic_space/peripheral_space.py:PeripheralSpace.add_rows", "src/composes/utils/space_utils.py:add_items_to_dict"]}
{"id": "C29", "title": "add_rows on a peripheral space does not affect other spaces", "statement": "Building a peripheral space from the matrix and row maps of an existing space and later adding rows to it does not change the existing space.", "quantifier": "all spaces, histories", "why_tests_cant": "aliasing across histories", "anchors": ["src/composes/semantic_space/peripheral_space.py:PeripheralSpace.__init__", "src/composes/semantic_space/peripheral_space.py:PeripheralSpace.add_rows", "src/composes/semantic_space/peripheral_space.py:PeripheralSpace.build", "src/pipelines/build_peripheral_space.py:transform_raw_per_space"]}
{"id": "C30", "title": "Sparse row access reads the right stored entries", "statement": "For a well formed CSR matrix, indexing a row m[i] / m[i,:] returns the 1 x n matrix whose entries are exactly those of row i.", "quantifier": "all CSR matrices (empty rows anywhere), all valid i", "why_tests_cant": "all index structures", "anchors": ["src/composes/matrix/sparse_matrix.py:SparseMatrix.__getitem__"]}
{"id": "C31", "title": "Sparse element-wise operations agree with the dense ones", "statement": "plog, get_non_negative, to_non_negative, to_ones, remove_small_values (for epsilon >= 0), assert_positive and norm computed on the stored entries of a sparse matrix give the same values as the dense implementation on the full matrix.", "quantifier": "all CSR matrices without duplicate entries, explicit zeros allowed", "why_tests_cant": "all matrices", "anchors": ["src/composes/matrix/sparse_matrix.py", "src/composes/matrix/dense_matrix.py"]}
{"id": "C32", "title": "Sparse reshape is row-major and loses nothing", "statement": "SparseMatrix.reshape gives, for every new shape with the same number of cells, the same matrix as row-major dense reshape; reshaping back restores the original; any other shape raises ValueError and leaves the matrix unchanged.", "quantifier": "all CSR matrices and shapes", "why_tests_cant": "index arithmetic over all shapes", "anchors": ["src/composes/matrix/sparse_matrix.py:SparseMatrix.reshape", "src/composes/matrix/dense_matrix.py:DenseMatrix.reshape"]}
{"id": "C33", "title": "Sparse reshape index arithmetic does not overflow", "statement": "The linear positions and new coordinates computed by SparseMatrix.reshape in 32-bit arithmetic (64-bit when the matrix has at least 2^31-1 cells) equal the exact integers.", "quantifier": "all shapes up to 2^31-1 per dimension", "why_tests_cant": "boundary values are out of reach of tests", "anchors": ["src/composes/matrix/sparse_matrix.py:SparseMatrix.reshape"]}
{"id": "C34", "title": "is_mostly_positive means more than half of the non-zero entries are positive", "statement": "is_mostly_positive returns True exactly when strictly more than half of the non-zero entries are positive, for dense and sparse matrices alike.", "quantifier": "all matrices", "why_tests_cant": "integer division and zero handling for all counts", "anchors": ["src/composes/matrix/dense_matrix.py:DenseMatrix.is_mostly_positive", "src/composes/matrix/sparse_matrix.py:SparseMatrix.is_mostly_positive"]}
{"id": "C35", "title": "all_close agrees between dense and sparse and is symmetric", "statement": "all_close gives the same answer for a dense and a sparse representation of the same pair of matrices, is reflexive, and does not depend on the order of its arguments.", "quantifier": "all matrix pairs", "why_tests_cant": "all values", "anchors": ["src/composes/matrix/dense_matrix.py:DenseMatrix.all_close", "src/composes/matrix/sparse_matrix.py:SparseMatrix.all_close"]}
{"id": "C36", "title": "Matrix algebra type and shape errors", "statement": "+, -, *, multiply, vstack and hstack on a dense and a sparse matrix raise TypeError; on matrices of one type they give the mathematical result when the shapes fit; vstack/hstack/multiply/* raise ValueError when the shapes do not fit; division by 0 raises ZeroDivisionError.", "quantifier": "all matrices", "why_tests_cant": "all shapes", "anchors": ["src/composes/matrix/matrix.py", "src/composes/matrix/dense_matrix.py", "src/composes/matrix/sparse_matrix.py"]}
{"id": "C37", "title": "scale_rows / scale_columns / padd_matrix", "statement": "scale_rows multiplies row i by the i-th value, scale_columns column j by the j-th value, padd_matrix appends one constant row or column; wrong lengths / axes raise ValueError.", "quantifier": "all matrices", "why_tests_cant": "all shapes", "anchors": ["src/composes/matrix/dense_matrix.py:DenseMatrix.scale_rows", "src/composes/matrix/sparse_matrix.py:SparseMatrix.scale_rows", "src/composes/utils/matrix_utils.py:padd_matrix"]}
{"id": "C38", "title": "compose keeps exactly the valid tuples in order", "statement": "compose(data, spaces) returns a space whose row labels are the phrase strings of exactly those tuples whose two words are in their spaces, in input order; the row of each phrase is the model applied to the vectors of its own two words; if two valid tuples have the same phrase string, or none is valid, ValueError is raised.", "quantifier": "all data lists, spaces, models", "why_tests_cant": "all inputs", "anchors": ["src/composes/composition/composition_model.py:CompositionModel.compose", "src/composes/composition/composition_model.py:CompositionModel.valid_data_to_lists"]}
{"id": "C39", "title": "compose/train on an empty data list raises ValueError", "statement": "Calling compose or train with no data raises ValueError (No valid data found).", "quantifier": "all models and spaces", "why_tests_cant": "corner case of an unbound loop variable", "anchors": ["src/composes/composition/composition_model.py:CompositionModel.valid_data_to_lists"]}
{"id": "C40", "title": "Weighted additive composition", "statement": "WeightedAdditive(alpha,beta) composes to alpha*u+beta*v; the defaults are 0.5/0.5, and when only alpha is given beta is 1-alpha; non-numeric parameters raise TypeError.", "quantifier": "all parameters, vectors", "why_tests_cant": "all vectors", "anchors": ["src/composes/composition/weighted_additive.py"]}
{"id": "C41", "title": "Dilation composition", "statement": "Dilation composes to (u.u)v+(lambda-1)(u.v)u for every pair of vectors and lambda (default 2).", "quantifier": "all vectors, lambda", "why_tests_cant": "all vectors", "anchors": ["src/composes/composition/dilation.py"]}
{"id": "C42", "title": "Multiplicative composition", "statement": "Multiplicative composes to the component-wise product; vectors of different length raise ValueError. It cannot be trained: train(data, spaces, phrase_space) raises TypeError whatever the arguments.", "quantifier": "all vectors", "why_tests_cant": "all vectors", "anchors": ["src/composes/composition/multiplicative.py"]}
{"id": "C43", "title": "Full additive composition", "statement": "FullAdditive(A=,B=) composes to A u + B v for matrices of any fitting shape; after training with intercept the composed vector is A u + B v + c. Composing with a FullAdditive that has not been trained raises TypeError.", "quantifier": "all matrices and vectors", "why_tests_cant": "all inputs", "anchors": ["src/composes/composition/full_additive.py"]}
{"id": "C44", "title": "Full additive training and composition agree with the regression", "statement": "After training a FullAdditive model, composing a pair (u,v) gives exactly the prediction [u v 1]*X (or [u v]*X without intercept) of the regression solution X learned from the training rows. A FullAdditive built from given matrices has no learner: training it raises AttributeError.", "quantifier": "all training sets, learners, pairs", "why_tests_cant": "block structure of the learned matrix for all sizes", "anchors": ["src/composes/composition/full_additive.py"]}
{"id": "C45", "title": "Lexical function composition multiplies the word's matrix with the argument vector", "statement": "LexicalFunction.compose gives for every tuple the product of the function word's matrix (its row reshaped row-major to element_shape) with the argument vector (extended by 1 with intercept); the element shape of the result drops the last dimension; the function space is not modified.", "quantifier": "all function spaces of any tensor order, all data", "why_tests_cant": "all shapes", "anchors": ["src/composes/composition/lexical_function.py"]}
{"id": "C46", "title": "Lexical function training learns each function from exactly its own samples", "statement": "LexicalFunction.train yields one row per function word having at least MIN_SAMPLES valid samples (and no other), and composing with that row equals the regression prediction trained on exactly that word's valid (arg, phrase) rows in input order.", "quantifier": "all training data orders, learners, MIN_SAMPLES", "why_tests_cant": "grouping of arbitrary data", "anchors": ["src/composes/composition/lexical_function.py", "src/composes/utils/gen_utils.py:get_partitions"]}
{"id": "C47", "title": "get_partitions finds the maximal runs", "statement": "On a list whose equal elements are adjacent get_partitions returns, in order, exactly the maximal runs of equal elements of length at least min_samples, as half-open index ranges with their key.", "quantifier": "all lists and thresholds >= 1", "why_tests_cant": "all lists", "anchors": ["src/composes/utils/gen_utils.py:get_partitions"]}
{"id": "C48", "title": "Weighted additive training uses all valid samples and is least-squares optimal", "statement": "WeightedAdditive.train sets (alpha,beta) to a minimiser of the total squared error over all valid training samples.", "quantifier": "all training sets and phrase space sizes", "why_tests_cant": "depends on the relation of sample count and chunk size", "anchors": ["src/composes/composition/weighted_additive.py"]}
{"id": "C49", "title": "Dilation training is least-squares optimal", "statement": "Dilation.train sets lambda to a minimiser of the total squared error over the training samples (2 when the samples carry no information about lambda).", "quantifier": "all training sets", "why_tests_cant": "all real data", "anchors": ["src/composes/composition/dilation.py"]}
{"id": "C50", "title": "A composition model gives the same result whatever it composed before", "statement": "For a model whose parameters are fixed, compose(data, space) returns the same space - including column labels - regardless of earlier compose calls.", "quantifier": "all histories of compose calls", "why_tests_cant": "state carried across calls", "anchors": ["src/composes/composition/composition_model.py:CompositionModel.compose", "src/composes/composition/composition_model.py:composed_id2column"]}
{"id": "C51", "title": "Ridge regression returns the minimiser of its objective", "statement": "For lambda >= 0 and any correct pseudo-inverse, the matrix returned by ridge_regression minimises ||AX-B||^2 + lambda*||X||^2 (with intercept: over X and an unpenalised intercept row); the returned error is ||AX-B|| and the returned trace is the trace of the hat matrix.", "quantifier": "all matrices A, B of any size, all lambda >= 0", "why_tests_cant": "an optimality claim over all matrices", "anchors": ["src/composes/matrix/linalg.py:Linalg.ridge_regression"]}
{"id": "C52", "title": "Least squares regression returns a minimiser for dense and sparse input", "statement": "lstsq_regression returns a minimiser of ||AX-B||^2 (with an added column of ones for the intercept) for dense input given a correct numpy lstsq and for sparse input given a correct pseudo-inverse; the two have the same error.", "quantifier": "all matrices", "why_tests_cant": "all matrices", "anchors": ["src/composes/matrix/linalg.py:Linalg.lstsq_regression", "src/composes/matrix/linalg.py:Linalg._sparse_lstsq_regression"]}
{"id": "C53", "title": "Generalised cross validation picks the first minimiser", "statement": "With cross validation the ridge learner uses the first parameter in the range that minimises the GCV error among those where it is defined, and parameter 0 if it is defined nowhere.", "quantifier": "all parameter ranges and data", "why_tests_cant": "all lists; stale value across iterations", "anchors": ["src/composes/utils/regression_learner.py:RidgeRegressionLearner.train"]}
{"id": "C54", "title": "Ridge learner configuration", "statement": "A ridge learner cross-validates unless a parameter is given or cross validation is switched off; an explicit crossvalidation argument always wins; no cross validation without a parameter is rejected with ValueError; unknown keyword arguments are rejected.", "quantifier": "all keyword combinations", "why_tests_cant": "all combinations", "anchors": ["src/composes/utils/regression_learner.py:RidgeRegressionLearner.__init__"]}
{"id": "C55", "title": "Indexing structures read from a file are inverse and in first-occurrence order", "statement": "extract_indexing_structs returns for every requested field the list of distinct strings in order of first occurrence over all valid lines and the dictionary inverse to it; lines with too few fields are skipped; if nothing valid is found ValueError is raised.", "quantifier": "all file contents, field lists", "why_tests_cant": "all files", "anchors": ["src/composes/utils/io_utils.py:extract_indexing_structs"]}
{"id": "C56", "title": "Reading a sparse file sums duplicate cells", "statement": "The matrix read from an sm file has in cell (r,c) the sum of the counts of all lines for that row and column string; lines whose strings are not listed are ignored; a non-empty line with fewer than three fields raises ValueError.", "quantifier": "all files, row and column lists", "why_tests_cant": "all files", "anchors": ["src/composes/utils/io_utils.py:read_sparse_space_data"]}
{"id": "C57", "title": "Reading a dense file keeps the first line of each row", "statement": "The matrix read from a dm file has in the row of each listed string the values of its first line, zeros when it has none; a line with a different number of fields than the first raises ValueError.", "quantifier": "all files", "why_tests_cant": "all files", "anchors": ["src/composes/utils/io_utils.py:read_dense_space_data"]}
{"id": "C58", "title": "Export to dm and build gives back the same space", "statement": "Exporting any space with whitespace-free labels in dm format and building it from the written data, row and column files gives a space with the same labels and exactly the same values.", "quantifier": "all spaces", "why_tests_cant": "round trip over all spaces", "anchors": ["src/composes/semantic_space/space.py:Space.export", "src/composes/semantic_space/space.py:Space.build", "src/composes/utils/io_utils.py:print_cooc_mat_dense_format", "src/composes/utils/io_utils.py:read_dense_space_data"]}
{"id": "C59", "title": "Export to sm and build gives back the same space", "statement": "Exporting a space with column labels in sm format and building it from the written data, row and column files gives a space with the same labels and the same values.", "quantifier": "all spaces, dense and sparse, empty rows included", "why_tests_cant": "round trip over all spaces; CSR traversal; number formatting", "anchors": ["src/composes/semantic_space/space.py:Space.export", "src/composes/semantic_space/space.py:Space.build", "src/composes/utils/io_utils.py:print_cooc_mat_sparse_format", "src/composes/utils/io_utils.py:read_sparse_space_data"]}
{"id": "C60", "title": "The sparse writer labels every stored entry correctly", "statement": "print_cooc_mat_sparse_format on a CSR matrix writes exactly one line per stored entry, in storage order, each with the row label, column label and value of that entry, for any pattern of empty rows.", "quantifier": "all CSR matrices", "why_tests_cant": "pointer-chasing loop over all patterns", "anchors": ["src/composes/utils/io_utils.py:print_cooc_mat_sparse_format"]}
{"id": "C61", "title": "export without a format writes the matrix in the default dm format", "statement": "space.export(prefix) writes the matrix file prefix.dm and the row file (and the column file when there are column labels).", "quantifier": "all spaces, prefixes", "why_tests_cant": "default branch", "anchors": ["src/composes/semantic_space/space.py:Space.export"]}
{"id": "C62", "title": "save/export work for any writable file name", "statement": "Saving or exporting to a plain file name in the current directory or to a path whose parent directories are missing succeeds, creating the directories.", "quantifier": "all paths and file-system states", "why_tests_cant": "depends on path shape", "anchors": ["src/composes/utils/io_utils.py:create_parent_directories", "src/composes/utils/io_utils.py:save"]}
{"id": "C63", "title": "Space.build argument rules", "statement": "build raises ValueError when data or format is missing, the format is not sm/dm, or sm is requested without a column file; with dm and no column file the result has no column labels; a column list whose length differs from the matrix is rejected.", "quantifier": "all keyword combinations and files", "why_tests_cant": "all combinations", "anchors": ["src/composes/semantic_space/space.py:Space.build"]}
{"id": "C64", "title": "Cross-validation folds form a balanced partition", "statement": "For n >= 1 items and fold >= 1 get_split_indices returns min(fold, n) lists that together contain each of 0..n-1 exactly once and whose lengths differ by at most one, for every shuffle; fold <= 0 or n <= 0 raises ValueError.", "quantifier": "all n, fold, shuffles", "why_tests_cant": "all sizes and random outcomes", "anchors": ["src/composes/utils/crossvalidation_utils.py:get_split_indices"]}
{"id": "C65", "title": "AUC is the probability that a positive outranks a negative", "statement": "auc(gold, prediction) equals the fraction of (positive, negative) pairs in which the positive has the higher score, ties counting one half; it lies in [0,1], does not depend on the order of the data and is invariant under strictly increasing transformations of the scores; a gold value other than 0/1 raises ValueError (called directly with fewer predictions than gold values: IndexError at the first gold value without a prediction, unless it or an earlier one is not 0/1).", "quantifier": "all gold/prediction arrays", "why_tests_cant": "all arrays, ties", "anchors": ["src/composes/utils/scoring_utils.py:auc"]}
{"id": "C66", "title": "score dispatch", "statement": "score raises ValueError on arrays of different length and NotImplementedError on an unknown measure, and otherwise evaluates exactly the requested measure.", "quantifier": "all inputs", "why_tests_cant": "all inputs", "anchors": ["src/composes/utils/scoring_utils.py:score"]}
{"id": "C67", "title": "build_core_space writes one space per option combination", "statement": "build_spaces writes, for every combination of weighting, selection, reduction and normalization, the space obtained by applying them in that order to the input space, skipping none/unknown ones; combinations of valid distinct options get distinct file names.", "quantifier": "all option lists", "why_tests_cant": "all combinations", "anchors": ["src/pipelines/build_core_space.py"]}
{"id": "C68", "title": "Command line options override the configuration file", "statement": "In the pipelines an option given on the command line takes precedence over the configuration file, the last occurrence wins, and options not given come from the configuration file or the documented default.", "quantifier": "all option lists and configuration files", "why_tests_cant": "all combinations", "anchors": ["src/pipelines/build_core_space.py:main", "src/pipelines/pipeline_utils.py:config_get"]}
{"id": "C69", "title": "train_composition uses the lambda given on the command line", "statement": "Without cross validation the model is trained with the value of --lambda, whether or not --lambda_range is given; without --lambda the pipeline refuses to run.", "quantifier": "all option values", "why_tests_cant": "Python 2 list comprehension scoping", "anchors": ["src/pipelines/train_composition.py:main"]}
{"id": "C70", "title": "The documented long options of compute_neighbours work", "statement": "--sim_measure <m> sets the similarity measure just like -m <m>.", "quantifier": "all values", "why_tests_cant": "getopt abbreviation rules", "anchors": ["src/pipelines/compute_neighbours.py:main"]}
{"id": "C71", "title": "compute_similarities writes one scored line per non-blank input line", "statement": "For each measure the output has one line per non-blank input line, in order: the stripped line followed by get_sim of the words in the two requested columns; an unknown measure is skipped.", "quantifier": "all files, measures", "why_tests_cant": "all files", "anchors": ["src/pipelines/compute_similarities.py:compute_sim"]}
{"id": "C72", "title": "Matrix-valued elements cannot be reduced or selected", "statement": "Applying a dimensionality reduction or a feature selection to a space whose elements are matrices (element shape with more than one component) raises IllegalOperationError and changes nothing.", "quantifier": "all such spaces", "why_tests_cant": "the error path formats its message from the shape", "anchors": ["src/composes/semantic_space/space.py:Space.assert_1dim_element"]}
{"id": "C73", "title": "A supplied row dictionary keeps working when the space grows", "statement": "A row2id dictionary accepted by the constructor keeps addressing the right rows after later successful stacking or add_rows calls.", "quantifier": "all accepted dictionaries and growth histories", "why_tests_cant": "dictionary values may be any Python index", "anchors": ["src/composes/semantic_space/space.py:Space.__init__", "src/composes/utils/space_utils.py:assert_dict_match_list", "src/composes/semantic_space/peripheral_space.py:PeripheralSpace.add_rows"]}
{"id": "C74", "title": "A wrong command line is reported by the exit status", "statement": "A pipeline called with an unknown option, a missing option argument or an argument for a flag exits with a non-zero status and writes nothing.", "quantifier": "all seven scripts, all argument lists", "why_tests_cant": "getopt's abbreviation and error rules over all argument lists", "anchors": ["src/pipelines/build_core_space.py:main", "src/pipelines/train_composition.py:main", "src/pipelines/compute_neighbours.py:main"]}
{"id": "C75", "title": "read_tuple_list and read_list return the requested fields of every non-blank line", "statement": "read_tuple_list(file, fields=fs) returns, in order, one tuple per non-blank line with exactly the requested fields, and raises IndexError iff some non-blank line lacks one; without fields it returns all words. read_list returns the stripped non-blank lines, or the requested field of each.", "quantifier": "all file contents and field lists", "why_tests_cant": "all files", "anchors": ["src/composes/utils/io_utils.py:read_tuple_list", "src/composes/utils/io_utils.py:read_list"]}
{"id": "C76", "title": "train_composition stores the requested model trained on the given data", "statement": "When train_composition ends normally, <out>/TRAINED_COMP_MODEL.<model>.<input>.pkl holds the requested model, trained with the requested learner on exactly the triples of the input file and the given spaces; no file other than it, the exported parameters and the log is touched; an unknown model is a ValueError.", "quantifier": "all options, files and spaces", "why_tests_cant": "all option combinations and file systems", "anchors": ["src/pipelines/train_composition.py:train_model"]}
{"id": "C77", "title": "The --intercept option of train_composition is honoured", "statement": "The learner used by train_composition has an intercept iff the value of --intercept is True, whatever the regression (default lstsq).", "quantifier": "all option values", "why_tests_cant": "all option combinations", "anchors": ["src/pipelines/train_composition.py:train_model"]}
{"id": "C78", "title": "The model names documented by train_composition are accepted", "statement": "Each of the documented values of --model (WeightedAdditive, FullAdditive, LexicalFunction, Dilation) trains the model of that name.", "quantifier": "all inputs", "why_tests_cant": "all inputs", "anchors": ["src/pipelines/train_composition.py:usage", "src/pipelines/train_composition.py:train_model"]}
{"id": "C79", "title": "apply_composition stores the composed space", "statement": "When apply_composition ends normally, <out>/COMPOSED_SS.<class>.<input>.pkl holds the space composed by the named model with the given parameters (or the loaded model) from the triples of the input file and the argument spaces; only its output files are touched; giving both or neither of --model and --load_model exits with status 1.", "quantifier": "all options, files and spaces", "why_tests_cant": "all option combinations and file systems", "anchors": ["src/pipelines/apply_composition.py:apply_model", "src/pipelines/apply_composition.py:main"]}
{"id": "C80", "title": "A model trained by train_composition is what apply_composition loads", "statement": "Running apply_composition --load_model on the file written by train_composition composes with exactly the trained model, with no file written in between.", "quantifier": "all histories of the two scripts", "why_tests_cant": "two-process history through the file system", "anchors": ["src/pipelines/train_composition.py:train_model", "src/pipelines/apply_composition.py:apply_model", "src/composes/utils/io_utils.py:save"]}
{"id": "C81", "title": "build_peripheral_space stores the peripheral space of the core", "statement": "build_peripheral_space writes <out>/PER_SS.<input>.<core>.pkl holding the PeripheralSpace built from the core space and the raw input; in batch mode it does so for every matching pickle of the directory; only its output files are touched.", "quantifier": "all inputs, directories and file orders", "why_tests_cant": "all directory contents and listing orders", "anchors": ["src/pipelines/build_peripheral_space.py"]}
{"id": "C82", "title": "compute_neighbours writes the neighbours of every input word", "statement": "compute_neighbours writes, for every non-blank input line in order, the word followed by one line per neighbour as returned by get_neighbours, to NEIGHBOURS.<input>.<spaces>.<measure>; an unknown measure is a ValueError.", "quantifier": "all inputs and spaces", "why_tests_cant": "all files", "anchors": ["src/pipelines/compute_neighbours.py:compute_neighbours"]}
{"id": "C83", "title": "evaluate_similarities scores the two requested columns", "statement": "evaluate_similarities reports, for each requested measure in order, the score of the numbers in the two requested columns over all non-blank lines; it writes no file.", "quantifier": "all inputs", "why_tests_cant": "all files", "anchors": ["src/pipelines/evaluate_similarities.py:evaluate_sim"]}
{"id": "C84", "title": "A missing required option is reported", "statement": "Each pipeline called without one of its required options exits with status 1 and leaves every file (except the log) as it was.", "quantifier": "all seven scripts, all argument lists", "why_tests_cant": "all argument lists", "anchors": ["src/pipelines/pipeline_utils.py:assert_option_not_none"]}
{"id": "C85", "title": "The --log option accepts any writable file name", "statement": "A pipeline called with --log <file> logs to that file, also when the name has no directory part.", "quantifier": "all file names", "why_tests_cant": "all file names and file systems", "anchors": ["src/composes/utils/log_utils.py:config_logging", "src/composes/utils/io_utils.py:create_parent_directories"]}
{"id": "C86", "title": "Exported model parameters read back as the trained ones", "statement": "export of a WeightedAdditive or Dilation model writes its parameters by name, each within 1e-6 of the parameter; export of a FullAdditive model writes matrices A, B and, with an intercept, a column c such that the model maps u, v to A u + B v + c; a Multiplicative model raises IllegalOperationError and an untrained FullAdditive or LexicalFunction model raises IllegalStateError, and nothing is written.", "quantifier": "all models and file names", "why_tests_cant": "all parameter values", "anchors": ["src/composes/composition/composition_model.py:CompositionModel.export", "src/composes/composition/weighted_additive.py:WeightedAdditive._export"]}
{"id": "C87", "title": "--help always works", "statement": "Each pipeline called with -h or --help before any other option exits with status 0 and writes nothing.", "quantifier": "all seven scripts, all argument lists", "why_tests_cant": "all argument lists", "anchors": ["src/pipelines/build_core_space.py:main"]}
{"id": "C88", "title": "Column numbers start at one", "statement": "compute_similarities and evaluate_similarities use the words in the requested columns, counted from 1, and reject a column number that a line does not have.", "quantifier": "all column numbers and files", "why_tests_cant": "Python's negative indices", "anchors": ["src/pipelines/compute_similarities.py:compute_sim", "src/pipelines/evaluate_similarities.py:evaluate_sim"]}
{"id": "C89", "title": "The two space-building scripts agree on the core's own data", "statement": "build_core_space followed by build_peripheral_space on the same input data and the stored core space gives a peripheral space with the same row labels and the same vectors as the core.", "quantifier": "all inputs and option combinations", "why_tests_cant": "two-process history through the file system, all operations", "anchors": ["src/pipelines/build_core_space.py:build_spaces", "src/pipelines/build_peripheral_space.py:transform_raw_per_space", "src/composes/semantic_space/peripheral_space.py:PeripheralSpace"]}
{"id": "C90", "title": "An interrupted script leaves at most one broken file", "statement": "Whenever a pipeline is interrupted - by an exception, sys.exit or the death of the process at any moment - every file on the disk is as before the run or is a complete, correct output, with the exception of at most one of the output files; no directory disappears.", "quantifier": "all inputs, options, disks and interruption points", "why_tests_cant": "all interruption points", "anchors": ["src/pipelines/build_core_space.py:build_spaces", "src/pipelines/compute_similarities.py:compute_sim", "src/pipelines/compute_neighbours.py:compute_neighbours", "src/pipelines/train_composition.py:train_model", "src/pipelines/apply_composition.py:apply_model", "src/composes/utils/io_utils.py:save"]}
{"id": "C91", "title": "save replaces a file atomically", "statement": "At every moment while save overwrites a file, the file has either its complete old content or its complete new content.", "quantifier": "all files, contents and interruption points", "why_tests_cant": "all interruption points", "anchors": ["src/composes/utils/io_utils.py:save"]}
{"id": "C92", "title": "An interrupted script can be run again", "statement": "A pipeline interrupted at any moment and run again with the same arguments succeeds whenever the uninterrupted run does, and leaves the disk in the same state, provided that no output overwrites an input.", "quantifier": "all inputs, options, disks and interruption points", "why_tests_cant": "all interruption points", "anchors": ["src/pipelines/build_core_space.py:build_spaces", "src/pipelines/build_peripheral_space.py:build_space", "src/pipelines/compute_similarities.py:compute_sim", "src/pipelines/compute_neighbours.py:compute_neighbours", "src/pipelines/train_composition.py:train_model", "src/pipelines/apply_composition.py:apply_model"]}
{"id": "C93", "title": "Transformations never change the matrices they are given", "statement": "Whatever a program has done before, applying a scaling, feature selection, dimensionality reduction, projection, Lin similarity or lexical function composition, any arithmetic, slicing or stacking, and any constructor leaves every existing matrix and array as it was (also when it raises an exception), and computes the documented result, although several of them use plog(), to_non_negative(), to_ones() or reshape(), which change a matrix in place.", "quantifier": "all histories of calls, all matrices, dense and sparse", "why_tests_cant": "aliasing: all histories of calls and all sharing patterns", "anchors": ["src/composes/transformation/scaling/ppmi_weighting.py:PpmiWeighting.apply", "src/composes/transformation/scaling/plog_weighting.py:PlogWeighting.apply", "src/composes/semantic_space/operation.py:DimensionalityReductionOperation.project", "src/composes/similarity/lin.py:LinSimilarity._sim", "src/composes/composition/lexical_function.py:LexicalFunction._compose", "src/composes/matrix/dense_matrix.py:DenseMatrix.plog"]}
{"id": "C94", "title": "The result of a transformation is independent of its argument", "statement": "After y = transformation.apply(x) (or any method returning a new matrix), changing y in place any number of times leaves x as it is, and changing x leaves y as it is.", "quantifier": "all histories, all transformations, all sequences of in-place calls", "why_tests_cant": "aliasing: all later histories", "anchors": ["src/composes/transformation/scaling/normalization.py:Normalization.apply", "src/composes/matrix/matrix.py:Matrix.copy"]}
{"id": "C95", "title": "An in-place method changes only the matrix it is called on", "statement": "plog(), to_non_negative(), to_ones() and reshape() give the receiver its documented value and leave every other matrix of the program as it was.", "quantifier": "all histories of calls, all matrices", "why_tests_cant": "aliasing: all histories of calls and all sharing patterns", "anchors": ["src/composes/matrix/dense_matrix.py:DenseMatrix.__init__", "src/composes/matrix/dense_matrix.py:DenseMatrix.plog", "src/composes/matrix/sparse_matrix.py:SparseMatrix.__init__", "src/composes/matrix/sparse_matrix.py:SparseMatrix.plog"]}
{"id": "C96", "title": "Every NMF initialisation is a valid starting point", "statement": "For a non-negative matrix with at least one usable singular triple (for a dense one: a singular value above 1e-12), Nmf.nndsvd_init does not raise (in particular it never divides by the length of an empty section) and returns non-negative factors of the requested inner dimension whose rank-one parts are the NNDSVD sections of the singular triples, padded with zeros when the rank is smaller; a dense matrix without one raises ValueError; Nmf.random_init returns columns and rows of the matrix; nmf started from either gives non-negative factors that are not worse.", "quantifier": "all non-negative matrices, dense and sparse, all dimensions, all random picks", "why_tests_cant": "all matrices; the division by a zero length would only show for special sign patterns", "anchors": ["src/composes/transformation/dim_reduction/nmf.py:Nmf.nndsvd_init", "src/composes/transformation/dim_reduction/nmf.py:Nmf.random_init", "src/composes/matrix/dense_matrix.py:DenseMatrix.nary_hstack"]}
{"id": "C97", "title": "The numbers of a space built from files are those of the data file", "statement": "Space.build: with format sm the component of word w in dimension c is the sum of the counts on the lines for (w, c); with format dm the components of w are the numbers on the first line starting with w; a file with a malformed line is refused.", "quantifier": "all files and file systems", "why_tests_cant": "all file contents", "anchors": ["src/composes/semantic_space/space.py:Space.build", "src/composes/utils/io_utils.py:read_sparse_space_data", "src/composes/utils/io_utils.py:read_dense_space_data"]}
{"id": "C98", "title": "A peripheral space built from files has its counts under the right columns", "statement": "PeripheralSpace.build on an untransformed core: the component of w in the core's dimension c is the sum of the counts that the data file gives for (w, c).", "quantifier": "all files, column files and cores", "why_tests_cant": "all orders of the column file", "anchors": ["src/composes/semantic_space/peripheral_space.py:PeripheralSpace.build"]}
{"id": "C99", "title": "SVD reduction loses as little as possible", "statement": "Svd(k): the reduced vectors, expanded again with the transformation matrix, are at least as close to the original matrix (sum of squared differences) as any product of two matrices with inner dimension at most k; exactly when no singular value lies strictly between 0 and the tolerance 1e-12, otherwise up to the number of singular values times 1e-24.", "quantifier": "all non-empty matrices, dense and sparse, all k > 0, all competing factorisations", "why_tests_cant": "all matrices and all competing factorisations", "anchors": ["src/composes/transformation/dim_reduction/svd.py:Svd.apply", "src/composes/matrix/linalg.py:Linalg.svd"]}
{"id": "C100", "title": "SVD reduction never moves words apart", "statement": "space.apply(Svd(k)): the Euclidean similarity of any two words does not decrease and no word vector becomes longer; when k is at least the rank of a dense matrix, the dot, cosine and Euclidean similarities of all words are unchanged.", "quantifier": "all spaces, all k > 0, all pairs of words", "why_tests_cant": "all spaces and dimensions", "anchors": ["src/composes/semantic_space/space.py:Space.apply", "src/composes/transformation/dim_reduction/svd.py:Svd.apply", "src/composes/similarity/euclidean.py:EuclideanSimilarity"]}
{"id": "C101", "title": "Normalisation does not change cosines", "statement": "Applying RowNormalization or Normalization (by length, or by sum to a non-negative space) to a space changes no cosine similarity and no list of cosine neighbours; also between two spaces normalised independently.", "quantifier": "all spaces, words and neighbour counts", "why_tests_cant": "all spaces", "anchors": ["src/composes/transformation/scaling/row_normalization.py:RowNormalization.apply", "src/composes/transformation/scaling/normalization.py:Normalization.apply", "src/composes/similarity/cos.py:CosSimilarity", "src/composes/semantic_space/space.py:Space.get_neighbours"]}
{"id": "C102", "title": "Association weights do not depend on the corpus size", "statement": "Multiplying all counts of a matrix by one positive number leaves EPMI, PPMI and the normalisations unchanged and multiplies PLMI by that number (Normalization of a matrix whose total is 0 leaves it alone, so there the factor stays).", "quantifier": "all non-empty matrices and positive factors", "why_tests_cant": "all matrices and factors", "anchors": ["src/composes/transformation/scaling/epmi_weighting.py:EpmiWeighting.apply", "src/composes/transformation/scaling/ppmi_weighting.py:PpmiWeighting.apply", "src/composes/transformation/scaling/plmi_weighting.py:PlmiWeighting.apply"]}
{"id": "C103", "title": "The order of the words does not matter", "statement": "Two spaces with the same words and vectors in different row order, transformed by the same sequence of scalings and feature selections, again have the same words with the same vectors, columns and similarities.", "quantifier": "all spaces, all reorderings, all sequences of scalings and feature selections", "why_tests_cant": "all reorderings and sequences", "anchors": ["src/composes/semantic_space/space.py:Space.apply", "src/composes/transformation/feature_selection/top_feature_selection.py:TopFeatureSelection.apply"]}
{"id": "C104", "title": "A word is its own nearest neighbour", "statement": "get_neighbours(w, n) by Euclidean similarity, or by cosine for a word whose vector is not zero: no score exceeds 1, the best score is exactly 1, and w itself is in the list with score 1 unless the list is full of words with score 1 that come before it; always when n is at least the number of words.", "quantifier": "all spaces, words and n > 0", "why_tests_cant": "all spaces", "anchors": ["src/composes/semantic_space/space.py:Space.get_neighbours", "src/composes/similarity/cos.py:CosSimilarity", "src/composes/similarity/euclidean.py:EuclideanSimilarity"]}
{"id": "C105", "title": "Training recovers a model that explains the data exactly", "statement": "If some scalar (Dilation), some pair of weights (WeightedAdditive, phrase space with fewer than 15 rows, because training drops the last partial chunk), some pair of matrices and offset (FullAdditive with LstsqRegressionLearner) or some matrix for each function word (LexicalFunction with LstsqRegressionLearner) maps the constituents of every training triple exactly to the phrase vector, then train succeeds and compose on the training data gives back exactly the phrase vectors, with the phrases as row labels and the columns of the phrase space.", "quantifier": "all spaces, all training data, all generating parameters", "why_tests_cant": "all training sets and all parameters", "anchors": ["src/composes/composition/composition_model.py:CompositionModel.train", "src/composes/composition/composition_model.py:CompositionModel.compose", "src/composes/composition/dilation.py:Dilation._train", "src/composes/composition/weighted_additive.py:WeightedAdditive._train2", "src/composes/composition/full_additive.py:FullAdditive._train", "src/composes/composition/lexical_function.py:LexicalFunction.train"]}
{"id": "C106", "title": "The order of the features does not matter", "statement": "Two spaces with the same words and the same features in different column order have the same similarities and the same neighbours, and any sequence of scalings applied to both gives again spaces with the same vectors up to that column order.", "quantifier": "all spaces, all reorderings of the columns, all sequences of scalings", "why_tests_cant": "all reorderings and sequences", "anchors": ["src/composes/semantic_space/space.py:Space.apply", "src/composes/semantic_space/space.py:Space.get_sim", "src/composes/semantic_space/space.py:Space.get_neighbours"]}
{"id": "C107", "title": "Stacking many matrices is stacking them one after the other", "statement": "nary_vstack and nary_hstack of matrices of one type give the result of repeated vstack and hstack (also the same exception), the rows of the result of nary_vstack are the rows of the matrices one after the other, and an empty list is refused with ValueError.", "quantifier": "all lists of matrices, dense and sparse", "why_tests_cant": "all lengths and shapes", "anchors": ["src/composes/matrix/dense_matrix.py:DenseMatrix.nary_vstack", "src/composes/matrix/sparse_matrix.py:SparseMatrix.nary_vstack", "src/composes/matrix/dense_matrix.py:DenseMatrix.nary_hstack", "src/composes/matrix/dense_matrix.py:DenseMatrix.vstack"]}
{"id": "C108", "title": "Batch runs refuse a wrong input directory and skip files of other kinds", "statement": "The batch modes of compute_similarities, evaluate_similarities and build_peripheral_space raise ValueError if the input directory does not exist and OSError if it is a regular file; if no file name in it matches, nothing is computed and no file is written or changed.", "quantifier": "all file systems, directory names and other options", "why_tests_cant": "all file systems", "anchors": ["src/pipelines/compute_similarities.py:compute_sim_batch", "src/pipelines/evaluate_similarities.py:evaluate_sim_batch", "src/pipelines/build_peripheral_space.py:build_space_batch"]}
{"id": "C109", "title": "A misspelt or meaningless constructor argument is refused", "statement": "RowNormalization, Normalization, TopFeatureSelection, LstsqRegressionLearner, FullAdditive and LexicalFunction raise InvalidArgumentError for any keyword they do not document, whatever the other arguments are; the normalisations use exactly the given criterion or the documented default and refuse any other value; an integer dimension of TopFeatureSelection, Svd or Nmf is accepted exactly when it is positive; the regression_learner and MIN_SAMPLES setters accept exactly learners and integers.", "quantifier": "all keyword dictionaries and values", "why_tests_cant": "all combinations of keywords and values", "anchors": ["src/composes/transformation/scaling/row_normalization.py:RowNormalization.__init__", "src/composes/transformation/scaling/normalization.py:Normalization.__init__", "src/composes/transformation/feature_selection/feature_selection.py:FeatureSelection", "src/composes/transformation/dim_reduction/dimensionality_reduction.py:DimensionalityReduction", "src/composes/composition/lexical_function.py:LexicalFunction.set_regression_learner"]}
{"id": "C110", "title": "A constructor uses every argument it is given or refuses it", "statement": "LexicalFunction(function_space, intercept, learner) and FullAdditive(A, B, learner): either every given argument has its documented type and is stored in the new object, or the constructor raises.", "quantifier": "all keyword dictionaries and values", "why_tests_cant": "all combinations of keywords and values", "anchors": ["src/composes/composition/lexical_function.py:LexicalFunction.__init__", "src/composes/composition/full_additive.py:FullAdditive.__init__"]}
{"id": "C111", "title": "The documented defaults of LexicalFunction hold", "statement": "A LexicalFunction created without arguments trains with the documented defaults: MIN_SAMPLES is 3 and the learner is RidgeRegressionLearner(param=1).", "quantifier": "all training data that leave the properties unset", "why_tests_cant": "the default is observable only through which trainings succeed and with what", "anchors": ["src/composes/composition/lexical_function.py:LexicalFunction"]}
{"id": "C112", "title": "Exporting and reading again twice is the same as once", "statement": "After one round trip through the sparse text format (export, then Space.build), every further round trip gives back exactly the same space: the same words, columns and numbers.", "quantifier": "all spaces, all numbers of round trips", "why_tests_cant": "all spaces and rounding effects", "anchors": ["src/composes/semantic_space/space.py:Space.export", "src/composes/semantic_space/space.py:Space.build", "src/composes/utils/io_utils.py:print_cooc_mat_sparse_format"]}
{"id": "C113", "title": "Projecting new words into a reduced core never moves them apart", "statement": "Words added through a PeripheralSpace to a core reduced with Svd(k): the Euclidean similarity of two new words, or of a new word and a core word, is at least what it is without the reduction, and no vector is longer; a projection possible without the reduction is possible with it.", "quantifier": "all cores, transformation histories, new words and k > 0", "why_tests_cant": "all spaces and dimensions", "anchors": ["src/composes/semantic_space/peripheral_space.py:PeripheralSpace.__init__", "src/composes/semantic_space/peripheral_space.py:PeripheralSpace.__init__"]}
{"id": "C114", "title": "The order of the training data does not matter", "statement": "train on the same triples in another order gives the same model (or the same exception), for Dilation, WeightedAdditive, FullAdditive and LexicalFunction.", "quantifier": "all training data, all reorderings, all learners", "why_tests_cant": "all reorderings", "anchors": ["src/composes/composition/composition_model.py:CompositionModel.train", "src/composes/composition/weighted_additive.py:WeightedAdditive._train2", "src/composes/composition/dilation.py:Dilation._train", "src/composes/composition/full_additive.py:FullAdditive._train", "src/composes/composition/lexical_function.py:LexicalFunction.train"]}
{"id": "C115", "title": "A composed vector depends only on its own words", "statement": "compose with one model and one pair of spaces: a triple (w1, w2, phrase) that occurs in two data lists gets the same vector in both results, whatever the other triples are and however they are ordered; composing a list in two parts gives the rows of the whole, one part after the other.", "quantifier": "all models (also lexical functions), all spaces, all data lists", "why_tests_cant": "all data lists", "anchors": ["src/composes/composition/composition_model.py:CompositionModel.compose", "src/composes/composition/lexical_function.py:LexicalFunction.compose"]}
{"id": "C116", "title": "Multiplicative and additive composition do not depend on the order of the constituents", "statement": "compose of Multiplicative, and of WeightedAdditive when the weights are exchanged too: exchanging the two words of every triple together with the two argument spaces gives the same phrases with the same vectors.", "quantifier": "all spaces, weights and data lists", "why_tests_cant": "all spaces and data", "anchors": ["src/composes/composition/multiplicative.py:Multiplicative._compose", "src/composes/composition/weighted_additive.py:WeightedAdditive._compose"]}
{"id": "C117", "title": "Stacking spaces keeps their similarities", "statement": "After Space.vstack(s1, s2) the similarity of any two words is what get_sim computes from the spaces they come from, with the second one as space2; for two words of one part it is their similarity in that part.", "quantifier": "all pairs of stackable spaces, all words and measures", "why_tests_cant": "all spaces", "anchors": ["src/composes/semantic_space/space.py:Space.vstack", "src/composes/semantic_space/space.py:Space.get_sim"]}
{"id": "C118", "title": "The similarity and evaluation scripts fit together", "statement": "evaluate_similarities run on the file written by compute_similarities, with the gold column of the original word list and the column after its last field as the predicted column, evaluates exactly the gold scores of the list against get_sim of the word pairs, line by line; it succeeds exactly when every gold field is a number and the correlation is defined.", "quantifier": "all word lists, spaces, measures and columns", "why_tests_cant": "all files and spaces", "anchors": ["src/pipelines/compute_similarities.py:compute_sim", "src/pipelines/evaluate_similarities.py:evaluate_sim", "src/composes/utils/scoring_utils.py:score"]}
{"id": "C119", "title": "A larger ridge parameter shrinks the model and never improves the fit", "statement": "RidgeRegressionLearner: training on the same data with a larger parameter gives coefficients of no larger norm and a training error that is no smaller; parameter 0 gives a least-squares solution; the error of every parameter lies between the least-squares error and that of the zero model.", "quantifier": "all training matrices, all pairs of parameters, with and without intercept", "why_tests_cant": "all matrices and parameters", "anchors": ["src/composes/utils/regression_learner.py:RidgeRegressionLearner.train", "src/composes/matrix/linalg.py:Linalg.ridge_regression"]}
{"id": "C120", "title": "Asking for fewer neighbours gives the first of the longer list", "statement": "get_neighbours(word, n) is the beginning of get_neighbours(word, m) for n <= m, with the same measure and second space.", "quantifier": "all spaces, words, measures, n and m", "why_tests_cant": "all spaces including ties", "anchors": ["src/composes/semantic_space/space.py:Space.get_neighbours"]}
{"id": "C121", "title": "Similarity between two spaces does not depend on the direction", "statement": "s1.get_sim(w1, w2, measure, s2) equals s2.get_sim(w2, w1, measure, s1), and within one space get_sim(w1, w2) equals get_sim(w2, w1), for every measure.", "quantifier": "all pairs of spaces of one width, all words and measures", "why_tests_cant": "all spaces", "anchors": ["src/composes/semantic_space/space.py:Space.get_sim", "src/composes/similarity/similarity.py:Similarity.get_sim"]}
{"id": "C122", "title": "Repeating a normalisation or selecting features in steps changes nothing", "statement": "Normalization applied twice gives the result of applying it once; TopFeatureSelection(k) followed by TopFeatureSelection(j) gives the same matrix and labels as TopFeatureSelection(min(j, k)).", "quantifier": "all matrices and spaces, criteria, j and k", "why_tests_cant": "all matrices including ties", "anchors": ["src/composes/transformation/scaling/normalization.py:Normalization.apply", "src/composes/transformation/feature_selection/top_feature_selection.py:TopFeatureSelection.apply"]}
{"id": "C123", "title": "Linear reductions commute with composition", "statement": "Composing in a space reduced with Svd (weighted additive) or TopFeatureSelection (weighted additive and multiplicative) gives the vectors obtained by composing in the full space and projecting the result through the reduced core as a PeripheralSpace.", "quantifier": "all spaces, dimensions, weights and data lists", "why_tests_cant": "all spaces and data", "anchors": ["src/composes/composition/composition_model.py:CompositionModel.compose", "src/composes/semantic_space/peripheral_space.py:PeripheralSpace.__init__", "src/composes/semantic_space/peripheral_space.py:PeripheralSpace.__init__"]}
{"id": "C124", "title": "Processes on different files do not influence each other", "statement": "Processes that share a disk and take turns at system calls in any order: if no process changes a file or directory that another one looks at when run alone, then in every interleaving each process that ends has the outcome it has alone and finds the disk as if it had run alone; it ends after as many turns as it needs alone; what no process changes is never changed; two complete interleavings end in the same disk.", "quantifier": "all numbers of processes, all programs made of stat, listdir, mkdir, read, open-for-writing and write calls, all schedules", "why_tests_cant": "all interleavings of unboundedly many steps", "anchors": ["src/composes/utils/io_utils.py:save", "src/composes/utils/io_utils.py:load", "src/composes/utils/io_utils.py:create_parent_directories"]}
{"id": "C125", "title": "Scripts may run at the same time", "statement": "Runs of the seven scripts, started together with existing output directories, none of which may produce a file that another one reads or produces: whatever the schedule, each run that ends prints the numbers (or raises the exception) and leaves the files it leaves when run alone, and every file that is not an output or log file is untouched. Different scripts never produce the same file name in one output directory; runs with unrelated output directories never do either.", "quantifier": "all sets of runs of all seven scripts, all settings, disks and schedules", "why_tests_cant": "all interleavings", "anchors": ["src/pipelines/build_core_space.py:main", "src/pipelines/build_peripheral_space.py:main", "src/pipelines/compute_similarities.py:main", "src/pipelines/compute_neighbours.py:main", "src/pipelines/evaluate_similarities.py:main", "src/pipelines/train_composition.py:main", "src/pipelines/apply_composition.py:main"]}
{"id": "C126", "title": "Different files can be saved at the same time", "statement": "Processes that save different files with io_utils.save (or script runs that produce different files) succeed in every interleaving whenever each succeeds alone, and every file ends with what was saved there.", "quantifier": "all numbers of processes, paths, contents and schedules", "why_tests_cant": "all interleavings", "anchors": ["src/composes/utils/io_utils.py:save", "src/composes/utils/io_utils.py:create_parent_directories", "src/pipelines/build_core_space.py:print_space"]}
{"id": "C127", "title": "Loading a file while it is saved gives the old or the new content", "statement": "A process that loads a file while another process saves it gets the content before the save or the content after it.", "quantifier": "all contents, all schedules, any number of reading processes", "why_tests_cant": "all interleavings", "anchors": ["src/composes/utils/io_utils.py:save", "src/composes/utils/io_utils.py:load"]}
{"id": "C128", "title": "Loading checks the file and its type", "statement": "io_utils.load(f, T) raises IOError when f does not exist, TypeError when the pickled object is not an instance of T, and returns the object otherwise. A script that is given a missing space or model file, or a pickle of another kind, stops with that exception before it has written anything (compute_similarities skips a first file of another kind instead and still writes nothing).", "quantifier": "all files, pickled objects, types, disks and script settings", "why_tests_cant": "all disks and moments", "anchors": ["src/composes/utils/io_utils.py:load", "src/composes/utils/gen_utils.py:assert_is_instance", "src/pipelines/build_core_space.py:build_spaces", "src/pipelines/build_peripheral_space.py:transform_raw_per_space", "src/pipelines/compute_similarities.py:compute_sim", "src/pipelines/compute_neighbours.py:compute_neighbours", "src/pipelines/train_composition.py:train_model", "src/pipelines/apply_composition.py:apply_model"]}
{"id": "C129", "title": "Indexing a matrix", "statement": "m[i], m[[i, ...], :] and m[:, [j, ...]] return exactly the rows or columns asked for, in the order asked for and in the class of m, negative row numbers counting from the end; any index out of range raises IndexError; selecting rows of selected rows is selecting once, and rows and columns may be selected in either order.", "quantifier": "all matrices of both classes, all index lists", "why_tests_cant": "all shapes and indices", "anchors": ["src/composes/matrix/dense_matrix.py:DenseMatrix.__getitem__", "src/composes/matrix/sparse_matrix.py:SparseMatrix.__getitem__"]}
{"id": "C130", "title": "Which files Space.build accepts", "statement": "Space.build on readable files. dm format: it returns a space exactly when there is a row label, the first line and every non-blank line of the data have a label and the same positive number of further fields, which is also the number of different labels in the column file if one is given, and the fields of the lines that are used (the first line of each listed row) are numbers. sm format with a column file: exactly when there is a row label and a column label and every non-blank data line has at least three fields, the third being a number if the first two are listed labels. Everything else raises ValueError (StopIteration for a dm file without any line when the label files are in order); a file that does not exist raises IOError.", "quantifier": "all contents of the data, row and column files, all settings", "why_tests_cant": "all texts", "anchors": ["src/composes/semantic_space/space.py:Space.build", "src/composes/utils/io_utils.py:extract_indexing_structs", "src/composes/utils/io_utils.py:read_sparse_space_data", "src/composes/utils/io_utils.py:read_dense_space_data"]}
{"id": "C131", "title": "With a correct numerical library training succeeds and is optimal", "statement": "If numpy's pinv, lstsq and svd do what they promise: every regression learner that can be constructed succeeds on every pair of non-empty training matrices of one class with equal numbers of rows; WeightedAdditive and FullAdditive can be trained on all data with at least one usable triple, and LexicalFunction exactly when some function word has at least MIN_SAMPLES usable samples (ValueError otherwise); with a LstsqRegressionLearner the full additive model and every lexical function have the least total squared error over the usable samples (of the word) among all affine maps, and with a RidgeRegressionLearner of fixed parameter the lexical functions have the least penalised error.", "quantifier": "all constructed learners, training matrices, spaces, training lists and thresholds", "why_tests_cant": "all data, and optimality over all linear maps", "anchors": ["src/composes/utils/regression_learner.py:RidgeRegressionLearner.train", "src/composes/utils/regression_learner.py:LstsqRegressionLearner.train", "src/composes/matrix/linalg.py:Linalg.lstsq_regression", "src/composes/matrix/linalg.py:Linalg.ridge_regression", "src/composes/composition/full_additive.py:FullAdditive._train", "src/composes/composition/weighted_additive.py:WeightedAdditive._train2", "src/composes/composition/lexical_function.py:LexicalFunction.train"]}
{"id": "C132", "title": "Malformed lines and numbers: the first one decides", "statement": "evaluate_similarities: when the lines before it are fine, a line that lacks one of the two columns raises IndexError and a column that is not a number raises ValueError, the first column being looked at first; every input either has all its numbers or such a first bad line. compute_similarities and compute_neighbours: the first line that lacks a column raises IndexError, the first pair or word for which the similarity or the neighbours are not defined raises that error (KeyError for an unknown word). A --lambda, --lambda_range, --alpha or --beta that is not a number, and a column or count that is not a whole number, raises ValueError; a whole number is a decimal numeral with an optional sign and stands for its value.", "quantifier": "all input texts, columns, spaces, measures and option values", "why_tests_cant": "all texts", "anchors": ["src/pipelines/evaluate_similarities.py:evaluate_sim", "src/pipelines/compute_similarities.py:compute_sim", "src/pipelines/compute_neighbours.py:compute_neighbours", "src/pipelines/train_composition.py:main", "src/pipelines/apply_composition.py:main"]}
{"id": "C133", "title": "Training and applying a model from end to end", "statement": "If numpy's routines do what they promise, the spaces can be loaded and have fitting shapes (vectors of one length for WeightedAdditive and Dilation), at least one line of the data is usable (its words have vectors) and the output directory exists or can be created: train_composition with weighted_add, dilation, full_add or lexical_func succeeds and leaves the model trained as documented on the lines of the file, also when started from a command line; without a usable line it raises ValueError (UnboundLocalError for a file without lines). A stored model so trained can be applied by apply_composition --load_model to spaces of the same width, at once or later: if some line is composable and the composable phrases are distinct, it succeeds, and the composed space has exactly the composable phrases as rows, in input order, and the columns of the phrase space.", "quantifier": "all disks, spaces, data files, learners and settings", "why_tests_cant": "all data and disks", "anchors": ["src/pipelines/train_composition.py:train_model", "src/pipelines/train_composition.py:main", "src/pipelines/apply_composition.py:apply_model", "src/composes/composition/composition_model.py:CompositionModel.train", "src/composes/composition/composition_model.py:CompositionModel.compose", "src/composes/composition/lexical_function.py:LexicalFunction.train"]}
{"id": "C134", "title": "Building core spaces from end to end", "statement": "If numpy's and scipy's routines do what they promise: Svd(k) of a non-empty dense matrix succeeds exactly when the matrix stretches some unit vector to more than 1e-12 (and raises ValueError otherwise), Svd(k) of a sparse matrix with a non-zero entry succeeds; build_core_space.py with documented weightings, selections, reductions and normalizations on a consistent, non-empty, non-negative space of plain vectors succeeds and stores the result of every combination, provided that what is reduced by SVD is not zero in that sense, that the random draws of NMF are row and column numbers of the matrix and that the output directory can be written; and build_peripheral_space.py on the same input and any stored core space whose reduction is not NMF then succeeds too and stores a space with the labels and values of the core space.", "quantifier": "all spaces, option lists, disks and matrices", "why_tests_cant": "all spaces and combinations of options", "anchors": ["src/composes/transformation/dim_reduction/svd.py:Svd.apply", "src/composes/transformation/dim_reduction/nmf.py:Nmf.apply", "src/pipelines/build_core_space.py:build_spaces", "src/pipelines/build_peripheral_space.py:build_space", "src/composes/semantic_space/space.py:Space.apply"]}
{"id": "C135", "title": "A call on a composition model that raises leaves the model as it was", "statement": "If train or compose of a composition model raises an exception, the model afterwards composes and exports exactly as before the call, so that a caller who catches the exception can go on using it; after any sequence of calls, some of which raise, the model is the one determined by its successful trainings.", "quantifier": "all models, numerical libraries, training and composition data, spaces, exceptions and sequences of calls", "why_tests_cant": "all histories and failures", "anchors": ["src/composes/composition/composition_model.py:CompositionModel.train", "src/composes/composition/composition_model.py:CompositionModel.compose", "src/composes/composition/weighted_additive.py:WeightedAdditive.xxx", "src/composes/composition/dilation.py:Dilation._train", "src/composes/composition/full_additive.py:FullAdditive._train", "src/composes/composition/lexical_function.py:LexicalFunction.train"]}
{"id": "C136", "title": "Writing the same content to the same file at the same time is harmless", "statement": "Processes that save files into existing directories at the same time, where those that save the same file save the same content: in every interleaving each returns normally, and once all processes that save a file have ended it holds that content; other files are untouched. Runs of the scripts at the same time in existing output directories, none of which reads an output file, all of which succeed alone, and which would leave the same content in the files they have in common: each ends as it ends alone, and in the end every output file is as each of its writers would have left it. In particular any number of simultaneous runs of the same command end as one run does, and leave what one run leaves.", "quantifier": "all numbers of processes, paths, contents, scripts, settings, disks and schedules", "why_tests_cant": "all interleavings, including those in which one process truncates the file while another is in the middle of writing it", "anchors": ["src/composes/utils/io_utils.py:save", "src/composes/utils/io_utils.py:create_parent_directories", "src/pipelines/build_core_space.py:main", "src/pipelines/compute_similarities.py:main", "src/pipelines/train_composition.py:main", "src/pipelines/apply_composition.py:main"]}
{"id": "C137", "title": "A file saved by several processes at once holds what one of them saved", "statement": "When several processes save different contents to one file at the same time and all have returned normally, the file holds the content that one of them saved.", "quantifier": "all numbers of processes, contents and schedules", "why_tests_cant": "all interleavings", "anchors": ["src/composes/utils/io_utils.py:save"]}
{"id": "C138", "title": "Repeating the training data does not change a trained model", "statement": "train on a list of triples repeated k times (every triple given k times) gives the model that train gives on the list (or the same exception), for Dilation, WeightedAdditive, FullAdditive and LexicalFunction: only the proportions of the training data matter.", "quantifier": "all training data, numbers of repetitions, spaces and learners", "why_tests_cant": "all data and repetitions", "anchors": ["src/composes/composition/composition_model.py:CompositionModel.train", "src/composes/composition/weighted_additive.py:WeightedAdditive._train2", "src/composes/composition/dilation.py:Dilation._train", "src/composes/composition/full_additive.py:FullAdditive._train", "src/composes/composition/lexical_function.py:LexicalFunction.train", "src/composes/matrix/linalg.py:Linalg.lstsq_regression", "src/composes/matrix/linalg.py:Linalg.ridge_regression"]}
{"id": "C139", "title": "Configuration files", "statement": "A configuration file made of section headers [name], option lines (name = value or name: value, inside a section), indented lines that continue the option before them, and comment and blank lines is accepted; an option of the section of a script has the last value given to it there, else the last value in [DEFAULT], names being compared without regard to case, and other sections do not matter. Comment and blank lines can be inserted or removed anywhere in any file, and the final newline can be left out. An option before the first header, or a line of no such kind, is a ParsingError, which stops the script. Options can be moved from the command line to a file with one name=value per line: each script then has the same outcome.", "quantifier": "all files, section and option names, values, scripts, command lines and disks", "why_tests_cant": "all texts", "anchors": ["src/pipelines/pipeline_utils.py:config_get", "src/pipelines/build_core_space.py:main", "src/pipelines/build_peripheral_space.py:main", "src/pipelines/train_composition.py:main", "src/pipelines/apply_composition.py:main", "src/pipelines/compute_similarities.py:main", "src/pipelines/compute_neighbours.py:main", "src/pipelines/evaluate_similarities.py:main"]}
{"id": "C140", "title": "The correlation scores", "statement": "If scipy.stats computes Pearson's and Spearman's coefficients as textbooks define them, then for gold scores and predictions of the same length, neither constant: both scores lie between -1 and 1 and are symmetric; the order of the pairs matters for none of the measures (in evaluate_similarities.py: neither the order of the lines nor blank lines); Pearson's score is unchanged by a change of scale and zero point of the predictions, Spearman's by every strictly increasing change, and reversing the predictions changes the sign; Pearson's score is 1 exactly when the predictions are the gold scores on another scale, Spearman's exactly when they order all items as the gold scores do.", "quantifier": "all lists of numbers, measures, rescalings and files", "why_tests_cant": "all lists, permutations and monotone functions", "anchors": ["src/composes/utils/scoring_utils.py:score", "src/composes/utils/scoring_utils.py:pearson", "src/composes/utils/scoring_utils.py:spearman", "src/composes/utils/scoring_utils.py:auc", "src/pipelines/evaluate_similarities.py:evaluate_sim"]}
{"id": "C141", "title": "Association weights compare the counts with those expected by chance", "statement": "For a non-negative, non-zero count matrix let the expected count of a cell be row sum times column sum divided by the total. EPMI times the expected count is the count (so its average under the expected counts is 1); PPMI and PLMI of a cell are positive exactly when its count exceeds the expected one and 0 otherwise; they are 0 everywhere exactly when words and contexts are independent (every count is the expected one), and then EPMI is 1 in every non-empty cell; the mutual information of words and contexts is not negative and the PLMI weights add up to at least the total times the mutual information.", "quantifier": "all non-negative count matrices of both classes", "why_tests_cant": "all real matrices", "anchors": ["src/composes/transformation/scaling/epmi_weighting.py:EpmiWeighting.apply", "src/composes/transformation/scaling/ppmi_weighting.py:PpmiWeighting.apply", "src/composes/transformation/scaling/plmi_weighting.py:PlmiWeighting.apply"]}
{"id": "C142", "title": "Reducing to fewer dimensions keeps the first of more dimensions", "statement": "If the numerical library returns the leading part of one decomposition of a matrix whatever the number of dimensions asked for, then Svd(j) gives the first columns of Svd(k) for j <= k, up to one common sign, and the same holds of the matrices used for projecting new vectors; going from k to j dimensions never lowers the Euclidean similarity of two words of a space and makes no vector longer.", "quantifier": "all matrices of both classes, spaces, words and dimensions j <= k", "why_tests_cant": "all matrices and dimensions", "anchors": ["src/composes/transformation/dim_reduction/svd.py:Svd.apply", "src/composes/matrix/linalg.py:Linalg.svd", "src/composes/semantic_space/space.py:Space.apply"]}
{"id": "C143", "title": "After row normalisation by length the similarity measures agree", "statement": "After applying row normalisation with the length criterion to every space involved: the dot product similarity of any two words equals their cosine similarity (also for words without a vector and words with a zero vector); for words with non-zero vectors the Euclidean similarity is 1/(1+sqrt(2-2c)) where c is their cosine, which lies in [-1,1]; the neighbour lists by dot product and by cosine are identical including scores; and if no vector of the searched space and not that of the query is zero, the neighbour list by Euclidean similarity contains the same words in the same order.", "quantifier": "all spaces (dense or sparse, any size), all pairs of words, all n, with or without a second space", "why_tests_cant": "It is an identity over all real matrices and all rankings with ties; tests compare a few numbers.", "anchors": ["src/composes/transformation/scaling/row_normalization.py: RowNormalization.apply", "src/composes/similarity/cos.py: CosSimilarity", "src/composes/similarity/dot_prod.py: DotProdSimilarity", "src/composes/similarity/euclidean.py: EuclideanSimilarity", "src/composes/semantic_space/space.py: Space.get_sim, Space.get_neighbours"]}
{"id": "C144", "title": "Feature selection keeps what matters", "statement": "Applying TopFeatureSelection(k) to a space never lowers the Euclidean similarity of two words; if at most k columns contain a value other than 0 (in particular if there are at most k columns; for criterion 'sum' the values are non-negative) no similarity of any of the four measures and no neighbour list changes; and no other choice of the same number of columns has a larger total (criterion 'sum') or a larger sum of squares (criterion 'length').", "quantifier": "all spaces, both criteria, all k > 0, all words, all measures, all competing column choices", "why_tests_cant": "The optimality ranges over all subsets of columns and the similarity claims over all real matrices.", "anchors": ["src/composes/transformation/feature_selection/top_feature_selection.py: TopFeatureSelection.apply", "src/composes/semantic_space/space.py: Space.apply, Space.get_sim, Space.get_neighbours"]}
{"id": "C145", "title": "Special cases of the composition models", "statement": "FullAdditive with A = alpha*I and B = beta*I composes the same phrases to the same vectors as WeightedAdditive(alpha, beta); WeightedAdditive(1,0) gives every phrase the vector of its first word and (0,1) that of its second; the vector of a Dilation phrase is |u|^2 times the second word's vector with its part along the first word's vector u stretched by lambda (so lambda=1 gives |u|^2 v, and the parts orthogonal to u are only multiplied by |u|^2); in Multiplicative composition a vector of ones is neutral and a zero vector gives a zero phrase; a lexical function whose matrix is a*I multiplies its argument by a.", "quantifier": "all parameters, all spaces (dense or sparse), all data lists with known words, all directions orthogonal to the first word", "why_tests_cant": "These are identities over all real vectors and matrices; tests use a few numbers.", "anchors": ["src/composes/composition/weighted_additive.py: WeightedAdditive", "src/composes/composition/full_additive.py: FullAdditive", "src/composes/composition/dilation.py: Dilation", "src/composes/composition/multiplicative.py: Multiplicative", "src/composes/composition/lexical_function.py: LexicalFunction.compose"]}
{"id": "C146", "title": "Rescaling the word vectors does not change the cosines of phrases", "statement": "For Multiplicative and Dilation composition, normalising the two argument spaces beforehand (each in its own way: by rows or as a whole, by length, or by sum for non-negative values) changes no cosine similarity between composed phrases and no neighbour list by cosine; for WeightedAdditive, whose result depends on the relative lengths of the words, the same holds when all numbers of both spaces are multiplied by one positive number.", "quantifier": "all pairs of spaces, all data lists, all parameters, all phrases, all n", "why_tests_cant": "An invariance over all real matrices and all positive scalings.", "anchors": ["src/composes/composition/composition_model.py: CompositionModel.compose", "src/composes/composition/multiplicative.py: Multiplicative", "src/composes/composition/dilation.py: Dilation", "src/composes/composition/weighted_additive.py: WeightedAdditive", "src/composes/transformation/scaling/row_normalization.py: RowNormalization", "src/composes/transformation/scaling/normalization.py: Normalization"]}
{"id": "C147", "title": "Least squares and ridge regression with parameter 0 are the same learner", "statement": "Given numerical routines that keep their documented promises, a ridge regression learner with the parameter 0 (set explicitly, or the only value cross-validation can choose) returns exactly the coefficients of the least squares learner on all non-empty training matrices of one class with equal numbers of rows: among the solutions of least squared error, the shortest one. The least squares learner finds the same numbers on dense and on sparse data, although two different routines compute them. Hence a FullAdditive or LexicalFunction model trained with one learner raises the same exceptions or answers every compose call exactly like the one trained with the other.", "quantifier": "all training matrices, intercept settings, parameter grids of zeros, training data, word and phrase spaces, min_samples values, and later compose calls", "why_tests_cant": "the problem usually has many solutions (collinear columns); tests on full-rank data cannot see whether two code paths (numpy lstsq, pseudo-inverse of the normal equations) choose the same one", "anchors": ["src/composes/utils/regression_learner.py:RidgeRegressionLearner.train", "src/composes/matrix/linalg.py:Linalg.ridge_regression", "src/composes/composition/full_additive.py:FullAdditive._train", "src/composes/composition/lexical_function.py:LexicalFunction.train"]}
{"id": "C148", "title": "compute_neighbours and compute_similarities print the same scores", "statement": "When compute_neighbours and compute_similarities are run on the same space file(s) with the same similarity measure, the NEIGHBOURS file consists of one block per word of its input and the SIMS file of one line per line of its input; and whenever v is printed as a neighbour of w in the first file and some input line of the second run has w and v in the two columns, the score printed after that line is, character for character, the one printed after v.", "quantifier": "all space files (one or two), input files, measures, numbers of neighbours, column choices and file systems in which the two runs succeed", "why_tests_cant": "the two scripts compute the score by different code (get_sim on two vectors, the similarity functions on a whole matrix); tests compare a few words of toy spaces with one of them only", "anchors": ["src/pipelines/compute_neighbours.py: compute_neighbours", "src/pipelines/compute_similarities.py: compute_sim", "src/composes/semantic_space/space.py: get_neighbours, get_sim", "src/composes/similarity/cos.py"]}
{"id": "C149", "title": "Core spaces may be built in two runs of the script", "statement": "If a first run of build_core_space applies the first operations of a combination (weighting, selection, reduction, normalisation, in this order) and a second run reads the pickle it stored (--input_format=pkl) and applies the remaining ones, then the second run stores a result of the whole combination applied to the original input; without NMF it is byte for byte the pickle that a single run with the whole combination stores.", "quantifier": "Every library back end, input space and format, output directories, lists of documented options in both runs, every point at which the combination is split, every file system of the second run that holds the pickle of the first", "why_tests_cant": "A test runs a handful of option lists; the equality has to hold for every space, every combination and every split point.", "anchors": ["src/pipelines/build_core_space.py: build_spaces, apply_weighting, apply_reduction, apply_selection, apply_normalization, print_space", "src/composes/semantic_space/space.py: Space.apply", "src/composes/utils/io_utils.py: load, save"]}
{"id": "C150", "title": "An exported core space can be used as an input again", "statement": "The files that build_core_space exports for a combination are an input for the scripts (their common prefix with --input_format=dm or sm): the same words, column labels and values are read.", "quantifier": "Every library back end, input, documented combination, output directory, file system and exported format", "why_tests_cant": "The texts have to parse back for every space, label and number, and the run has to behave the same whatever files an earlier run left in the output directory.", "anchors": ["src/pipelines/build_core_space.py: build_spaces, print_space", "src/composes/semantic_space/space.py: Space.export, Space.build", "src/composes/utils/io_utils.py:print_list", "src/pipelines/build_peripheral_space.py: build_raw_per_space"]}
{"id": "C151", "title": "What regression does when numpy cannot compute a pseudo-inverse", "statement": "If the pseudo-inverse does not converge (numpy.linalg.LinAlgError), ridge_regression still returns: its result is W'B, where W is the training matrix with a column of ones if an intercept is used, whatever the parameter, with its true residual and the sum of squares of W as trace; it is not a minimiser in general. Ridge learners (with a parameter or cross validation) and sparse least squares learn this matrix. Every other exception of numpy, and every exception of the dense least-squares routine, is passed on.", "quantifier": "All training matrices of either class with as many rows, every parameter and parameter range, with and without intercept, every back end", "why_tests_cant": "The branch is only reached when LAPACK fails, which a test cannot bring about with chosen matrices.", "anchors": ["src/composes/matrix/linalg.py: Linalg.ridge_regression, Linalg.lstsq_regression, Linalg.pinv", "src/composes/utils/regression_learner.py: RidgeRegressionLearner.train"]}
{"id": "C152", "title": "Trained models are homogeneous in the phrase vectors", "statement": "Multiplying every phrase vector of the training data by the same number multiplies what is learned by that number: the two weights of WeightedAdditive, the coefficient matrices of the least-squares and (cross-validated) ridge learners when the number is not 0, and hence every vector later composed with the trained FullAdditive or LexicalFunction model; the choice of the ridge parameter does not change, and training succeeds with the scaled vectors whenever there is a usable sample.", "quantifier": "all training data, argument and phrase spaces, factors, learners the constructors build, storage formats and later compositions, with an ideal pseudo-inverse and least-squares routine", "why_tests_cant": "a test checks one factor on one training set; the claim includes the parameter selected by generalized cross-validation, for which the error at every grid point must scale alike.", "anchors": ["src/composes/utils/regression_learner.py:LstsqRegressionLearner.train", "src/composes/utils/regression_learner.py:RidgeRegressionLearner.train", "src/composes/matrix/linalg.py:Linalg.ridge_regression", "src/composes/matrix/linalg.py:Linalg.lstsq_regression", "src/composes/composition/weighted_additive.py:WeightedAdditive.xxx", "src/composes/composition/full_additive.py:FullAdditive._train", "src/composes/composition/lexical_function.py:LexicalFunction.train"]}
{"id": "C153", "title": "Results do not depend on the orthonormal basis", "statement": "Giving all vectors in another orthonormal basis (a rotation, a reflection, a reordering of the dimensions, the signs of SVD dimensions) changes no cosine, dot-product or Euclidean similarity and no neighbour list; WeightedAdditive and Dilation learn the same parameters and compose to the turned vectors; and for FullAdditive and LexicalFunction, where the argument and phrase spaces may even be turned independently, training with any built learner (least squares, ridge, cross-validated ridge, with or without intercept) succeeds in both bases and the vectors composed afterwards are the same vectors in the new basis.", "quantifier": "all well-formed spaces, orthogonal matrices of every size, training and test data, storage formats and learners the constructors build, with an ideal pseudo-inverse and least-squares routine", "why_tests_cant": "a test compares two bases on one data set, and numerical noise hides whether the penalty treats the directions alike or includes the intercept; the claim needs every orthogonal matrix and every training set.", "anchors": ["src/composes/utils/regression_learner.py:RidgeRegressionLearner.train", "src/composes/matrix/linalg.py:Linalg.ridge_regression", "src/composes/matrix/linalg.py:Linalg.lstsq_regression", "src/composes/composition/weighted_additive.py:WeightedAdditive.xxx", "src/composes/composition/dilation.py:Dilation._train", "src/composes/composition/full_additive.py:FullAdditive._train", "src/composes/composition/lexical_function.py:LexicalFunction.train", "src/composes/semantic_space/space.py:Space.get_sim", "src/composes/semantic_space/space.py:Space.get_neighbours"]}
{"id": "C154", "title": "The two constituents are treated alike in training", "statement": "Exchanging the two constituents in every training triple, together with the two argument spaces, exchanges what is learned: WeightedAdditive learns the same two weights in the other order, and FullAdditive learns the same two matrices in the other order, so that composing the exchanged triples gives the same labels and the same vectors as before.", "quantifier": "all training and test data, argument spaces (of different widths for FullAdditive), phrase spaces and learners the constructors build, with an ideal pseudo-inverse and least-squares routine", "why_tests_cant": "a test trains on one data set in two orders; a slip in splitting the learned matrix at the width of the first space shows only when the widths differ.", "anchors": ["src/composes/composition/weighted_additive.py:WeightedAdditive.xxx", "src/composes/composition/weighted_additive.py:WeightedAdditive._train2", "src/composes/composition/full_additive.py:FullAdditive._train", "src/composes/composition/full_additive.py:FullAdditive._compose"]}
{"id": "C155", "title": "What was never counted stays zero", "statement": "No weighting or normalisation (EPMI, PPMI, PLMI, PLOG, row and matrix normalisation) turns a zero cell into a non-zero one, so the number of non-zero cells never grows; EPMI and the normalisations keep every non-zero count of a non-negative matrix. A word without any counts has the zero vector after any sequence of scalings, feature selections and SVD reductions, and cosine 0 with every word; a peripheral word without counts has the zero vector whatever the transformations of the core space, NMF included, also if it is added later with add_rows, which leaves the vectors already there as they are.", "quantifier": "all matrices of both storage classes, all scalings, all sequences of transformations (for core words: without NMF and with SVD routines that return singular triples), all words", "why_tests_cant": "a test looks at a few zero cells; a stray smoothing constant, a division 0/0 or a log 0 appears only in particular cells, rows or combinations of operations.", "anchors": ["src/composes/transformation/scaling/epmi_weighting.py:EpmiWeighting.apply", "src/composes/transformation/scaling/plog_weighting.py:PlogWeighting.apply", "src/composes/transformation/scaling/row_normalization.py:RowNormalization.apply", "src/composes/transformation/scaling/normalization.py:Normalization.apply", "src/composes/semantic_space/peripheral_space.py:PeripheralSpace._project_core_operations", "src/composes/semantic_space/space.py:Space.apply"]}
{"id": "C156", "title": "Words with the same counts have the same vector", "statement": "In a core space built by scalings, feature selections and SVD reductions, two words with the same counts have the same vector. A peripheral word has the vector its counts determine: its name, its position, the other words given with it and the storage class of the counts do not matter, nor whether it is given when the space is built or later with add_rows. If the first transformation is EPMI, PPMI or a row normalisation, this holds already for words whose counts are proportional, in the core and in every peripheral space on it: how frequent a word is does not matter, only what it occurs with.", "quantifier": "all raw spaces, sequences of transformations and words (for core words: without NMF and with SVD routines that return singular triples), all peripheral matrices and all positive factors", "why_tests_cant": "a test compares two words; dependence on the position or on the other rows appears only for some matrices and some sequences of operations.", "anchors": ["src/composes/semantic_space/space.py:Space.apply", "src/composes/semantic_space/peripheral_space.py:PeripheralSpace._project_core_operations", "src/composes/transformation/scaling/epmi_weighting.py:EpmiWeighting.apply", "src/composes/transformation/scaling/row_normalization.py:RowNormalization.apply", "src/composes/transformation/dim_reduction/svd.py:Svd.apply"]}
{"id": "C157", "title": "Pooling counts adds vectors when no non-linear weighting is used", "statement": "If a core space was built by matrix normalisations, feature selections and SVD reductions only, vectors are linear in the counts: a word whose counts are a combination of the counts of two other words has the same combination of their vectors, in the core space and in every peripheral space on it.", "quantifier": "all raw spaces, all sequences of these transformations (for core words with SVD routines that return singular triples), all peripheral matrices, all coefficients", "why_tests_cant": "linearity is a statement about all combinations of rows; a test checks single sums, and a row-dependent correction (such as a sign or a normalisation by row) may leave these unchanged.", "anchors": ["src/composes/semantic_space/peripheral_space.py:PeripheralSpace._project_core_operations", "src/composes/transformation/scaling/normalization.py:Normalization.apply", "src/composes/transformation/feature_selection/top_feature_selection.py:TopFeatureSelection.apply", "src/composes/transformation/dim_reduction/svd.py:Svd.apply"]}
{"id": "C158", "title": "The similarity measures describe one geometry", "statement": "For words of one or of several spaces of the same width: the distance 1/score - 1 behind the Euclidean similarity obeys the triangle inequality, and so does the angle arccos(score) behind the cosine (zero vectors included), so two words close to a third are close to each other. The dot products determine the other two measures: (1/euclid - 1)^2 = dot(a,a) + dot(b,b) - 2 dot(a,b), cos * sqrt(dot(a,a)) * sqrt(dot(b,b)) = dot(a,b), and dot(a,b)^2 is at most dot(a,a) * dot(b,b).", "quantifier": "all well-formed spaces of the same positive width, dense or sparse, and all triples of words in them", "why_tests_cant": "the triangle inequality is about all triples of vectors, and the identities about all pairs; a test evaluates single values, which a wrong norm or a wrong treatment of zero vectors can still reproduce.", "anchors": ["src/composes/similarity/cos.py:CosSimilarity", "src/composes/similarity/euclidean.py:EuclideanSimilarity", "src/composes/similarity/dot_prod.py:DotProdSimilarity", "src/composes/semantic_space/space.py:Space.get_sim"]}
{"id": "C159", "title": "Stacking spaces: grouping, order, normalisation and composition", "statement": "Stacking three spaces works with one grouping exactly when it works with the other, and gives the same labels in the same order and the same vectors. Stacking in the other order works exactly when the first does and gives every word the same vector. PLOG weighting and row normalisation may be applied to the parts before stacking or to the stacked space. Composing with one stacked space works exactly when composing with the pair of its parts does and gives the same phrases with the same vectors, provided no first constituent is a word of the second part and vice versa.", "quantifier": "all non-empty well-formed spaces of either storage class, all composition models whose shapes fit, all lists of triples including unknown words", "why_tests_cant": "the statements relate different sequences of calls over all spaces; a test fixes one pair of spaces, and mixed storage classes or shared labels appear only in some of them.", "anchors": ["src/composes/semantic_space/space.py:Space.vstack", "src/composes/transformation/scaling/row_normalization.py:RowNormalization.apply", "src/composes/transformation/scaling/plog_weighting.py:PlogWeighting.apply", "src/composes/composition/composition_model.py:CompositionModel.compose"]}
{"id": "C160", "title": "Words that do not occur in the training data do not matter", "statement": "Training a composition model depends on the argument and phrase spaces only through the vectors of the words that occur in the training triples. Replacing a space by another one of the same matrix class and width, in which every word of the data is missing or has the same vector, gives the same trained model, or the same exception \u2013 whatever other words the spaces contain and in whatever order. In particular training with a stacked space is training with its parts.", "quantifier": "all models, all training data, all pairs of spaces that look alike for the words of the data, all numerical back ends (including ones that raise)", "why_tests_cant": "the words that do not occur in the data, their number, their vectors and their order range over all spaces; a test tries one extra word, and the one model for which the property fails needs fifteen", "anchors": ["src/composes/composition/composition_model.py:CompositionModel.train", "src/composes/composition/weighted_additive.py:WeightedAdditive.xxx", "src/composes/composition/lexical_function.py:LexicalFunction.train", "src/composes/semantic_space/space.py:Space.get_rows"]}
{"id": "C161", "title": "A space stored densely and the same space stored sparsely give the same results", "statement": "For two spaces that differ at most in the class of the matrix: every similarity and every neighbour list is the same; every chain of weightings, normalisations and feature selections raises the same exception or gives spaces that again differ at most in the class; composing works for one exactly when it works for the other and gives the same phrases with the same vectors; dilation, weighted additive, full additive and lexical function models learn the same parameters from any mixture of classes. to_dense and to_sparse give such a pair. The same is expected of Svd.", "quantifier": "all spaces, words, measures, chains of transformations, composition models, training data and mixtures of dense and sparse inputs", "why_tests_cant": "dense and sparse matrices run different code (numpy and scipy); a test compares them on one matrix, and the sign rule of the decomposition differs only for factors with many zeros", "anchors": ["src/composes/semantic_space/space.py:to_dense", "src/composes/semantic_space/space.py:to_sparse", "src/composes/matrix/dense_matrix.py:is_mostly_positive", "src/composes/matrix/sparse_matrix.py:is_mostly_positive", "src/composes/matrix/sparse_matrix.py:plog", "src/composes/matrix/linalg.py:_dense_svd"]}
{"id": "C162", "title": "Turning predictions or classes around turns the AUC around", "statement": "For 0/1 gold values with both classes present: predictions in the opposite order, or exchanged classes, get the score 1 - auc; doing both gives auc again; the score is 1 exactly when no positive item scores lower than a negative one, and 0 exactly when every positive item scores lower than every negative one.", "quantifier": "all gold lists and predictions of equal length with both classes, and all strictly decreasing transformations", "why_tests_cant": "the score is a running sum over the sorted items; a test has one list, and the claim fails only when a positive and a negative item are tied", "anchors": ["src/composes/utils/scoring_utils.py:auc"]}
{"id": "C163", "title": "Peripheral rows may be given densely or sparsely", "statement": "The rows of a peripheral space may be given as a dense or as a sparse matrix: building the space from them succeeds in both cases or in neither, with the same words, columns and values, and adding rows later with add_rows does not care about the class of the new rows either. (False of the code for add_rows: if the core space was not reduced, rows of the other class than the first ones always raise TypeError, although the same rows in the first class are accepted, and the new words are listed afterwards. True when all batches have one class, or when the core space was reduced, in which case any mixture gives the same space.)", "quantifier": "all core spaces obtained from a raw space by scalings, column selections and SVD reductions, all matrices of rows, labels, classes and sequences of batches", "why_tests_cant": "A test builds one space in one class; the claim compares both classes for every core space, every matrix and every sequence of batches.", "anchors": ["src/composes/semantic_space/peripheral_space.py:PeripheralSpace.add_rows", "src/composes/semantic_space/peripheral_space.py:PeripheralSpace.__init__", "src/composes/matrix/dense_matrix.py:vstack", "src/composes/matrix/sparse_matrix.py:vstack"]}
{"id": "C164", "title": "build_core_space refuses operations it does not know", "statement": "build_core_space refuses an operation it does not know (a misspelt weighting, selection, reduction or normalisation) and a selection or reduction whose size is not a positive whole number. (False of the code for names: the run succeeds, only a warning is printed, and a file whose name carries the unknown operations holds the unchanged input space. True for sizes: such a run never succeeds, and it ends with ValueError if the operations before it succeed.)", "quantifier": "all option lists, names, sizes, input spaces and file systems", "why_tests_cant": "A test tries some names; the claim is about every string that is not a documented operation.", "anchors": ["src/pipelines/build_core_space.py:apply_weighting", "src/pipelines/build_core_space.py:apply_selection", "src/pipelines/build_core_space.py:apply_reduction", "src/pipelines/build_core_space.py:apply_normalization", "src/pipelines/build_core_space.py:build_spaces"]}
{"id": "C165", "title": "Output file names tell runs apart", "statement": "Two runs of the scripts into the same output directory never overwrite each other's results unless they are runs of the same script with the same input name and the same options: each script writes only files with its own prefix, and within a script the name of the output determines the input name and the operations. (False as stated when input names contain dots: the result of weighting w on the input x and the unchanged input x.w have the same name, so a later run silently replaces an earlier, different result. True for dot-free input names, and for training and composition with all names.)", "quantifier": "all file systems, library behaviours, inputs, output directories, documented option lists, models, measures and pairs of successive runs", "why_tests_cant": "a collision needs two particular runs with particular input names; no test of a single run sees it, and the absence of collisions ranges over all names and option lists", "anchors": ["src/pipelines/build_core_space.py:build_spaces", "src/pipelines/build_core_space.py:print_space", "src/pipelines/build_peripheral_space.py:transform_raw_per_space", "src/pipelines/train_composition.py:train_model", "src/pipelines/apply_composition.py:apply_model", "src/pipelines/compute_similarities.py:compute_sim", "src/pipelines/compute_neighbours.py:compute_neighbours"]}
{"id": "C166", "title": "Phrases can be composed from phrases", "statement": "A space of composed phrases can be used together with the space of the words to compose longer phrases, with the same model object, and the vector of the longer phrase is the model's formula applied to the vector of the shorter phrase and that of the word; for Multiplicative and WeightedAdditive(1, 1) the grouping of three words does not matter, for other weights exactly when alpha(1-alpha)x = beta(1-beta)z. (False for FullAdditive models built from two matrices: their composed spaces have no column labels, and combining them with labelled words raises ValueError. True for the other models, for lexical functions between vectors of equal length and for FullAdditive models whose stored column labels are those of the words.)", "quantifier": "all spaces, all models, all pairs of triple lists, all words", "why_tests_cant": "needs two dependent calls and all spaces and models; unit tests compose once", "anchors": ["src/composes/composition/composition_model.py:CompositionModel.compose", "src/composes/composition/composition_model.py:CompositionModel._build_id2column", "src/composes/composition/composition_model.py:CompositionModel.extract_arg_spaces", "src/composes/composition/full_additive.py:FullAdditive._build_id2column", "src/composes/composition/lexical_function.py:LexicalFunction.compose"]}
{"id": "C167", "title": "Feature selection and peripheral words", "statement": "If TopFeatureSelection(k) is applied to a core space, a peripheral word keeps exactly the features that are best in the core space, whatever is best for the peripheral words: its vector on the reduced core is its vector on the core before restricted to those columns; words that could be given a peripheral space of the width of the core still can; two peripheral words never become less similar by Euclidean similarity; and if at most k columns of the core space are not zero everywhere (so that nothing changes in the core), no similarity of peripheral words changes either. (The last part is false of the code: a feature that only peripheral words have is lost, and two different words can become the same. True if the peripheral words are zero wherever the whole core space is.)", "quantifier": "all well-formed core spaces, numbers of features, criteria, peripheral matrices, words and measures", "why_tests_cant": "a test selects features of a fixed core for fixed new words; the claim is about every core space and every batch of new words", "anchors": ["src/composes/transformation/feature_selection/top_feature_selection.py:TopFeatureSelection", "src/composes/semantic_space/operation.py:FeatureSelectionOperation.project", "src/composes/semantic_space/peripheral_space.py:PeripheralSpace", "src/composes/similarity/euclidean.py:EuclideanSimilarity"]}
{"id": "C168", "title": "Weightings that look at one word at a time", "statement": "After any sequence of PLOG weightings and row normalisations the vector of a word depends on its own counts only: in two spaces with whatever other words, stored densely or sparsely, words with the same counts get the same vector; the similarity of two words by any measure does not change when other words are added to the space or left out; and new words may be treated as peripheral words of any core space with these transformations or as a core space of their own, with the same matrix.", "quantifier": "all spaces, all sequences of PLOG weightings and row normalisations, all words and measures", "why_tests_cant": "a test compares two fixed spaces; the claim is about every other content of the spaces and every sequence of these transformations", "anchors": ["src/composes/transformation/scaling/plog_weighting.py:PlogWeighting", "src/composes/transformation/scaling/row_normalization.py:RowNormalization", "src/composes/semantic_space/space.py:Space.apply", "src/composes/semantic_space/peripheral_space.py:PeripheralSpace"]}
{"id": "C169", "title": "A word known to the core space finds itself", "statement": "A word given to a peripheral space with the counts that some core word has (under whatever name, among whatever other words, densely or sparsely) has similarity exactly 1 to that core word across the two spaces, and get_neighbours(x, n, similarity, core) by Euclidean similarity, or by cosine if the vector is not zero, begins with score 1, has no score above 1, and contains the core word with score 1 unless the list is full of words with score 1 that come before it; always when n is at least the number of core words. This holds for every sequence of scalings, feature selections and SVD reductions of the core, and for any two spaces of one width in which the two words have the same vector.", "quantifier": "all raw spaces, all sequences of exact transformations, all peripheral matrices, words and n > 0", "why_tests_cant": "a test looks up fixed words in a fixed core; the claim is about every core, every transformation sequence and every batch of words", "anchors": ["src/composes/semantic_space/peripheral_space.py:PeripheralSpace", "src/composes/semantic_space/space.py:Space.get_neighbours", "src/composes/semantic_space/space.py:Space.get_sim"]}
{"id": "C170", "title": "Features that no word has do not matter", "statement": "Adding columns in which every word has the count 0 to a space (or leaving such columns out) changes nothing: every sequence of EPMI, PPMI, PLMI, PLOG weightings and row or matrix normalisations gives the same numbers in the other columns and zeros in the new ones, and no similarity of two words and no neighbour list changes, by any of the four measures. In particular an unused column causes no division by zero.", "quantifier": "all spaces, any number of zero columns, all sequences of weightings and normalisations, all words, measures and n", "why_tests_cant": "a test adds a column to a fixed space; the claim is about every space and every sequence of transformations", "anchors": ["src/composes/transformation/scaling/epmi_weighting.py:EpmiWeighting", "src/composes/transformation/scaling/normalization.py:Normalization", "src/composes/semantic_space/space.py:Space.apply", "src/composes/semantic_space/space.py:Space.get_neighbours"]}
