#!/usr/bin/env python3
"""Generates /verif/properties.jsonl (keeps the English property list in one readable place)."""
import json, os
P = []
def p(title, statement, quantifier, why, anchors):
    P.append(dict(id="C%02d" % (len(P)+1), title=title, statement=statement,
                  quantifier=quantifier, why_tests_cant=why, anchors=anchors))
SP="src/composes/semantic_space/space.py"; PS="src/composes/semantic_space/peripheral_space.py"
OP="src/composes/semantic_space/operation.py"; SU="src/composes/utils/space_utils.py"
MU="src/composes/utils/matrix_utils.py"; IO="src/composes/utils/io_utils.py"
DM="src/composes/matrix/dense_matrix.py"; SM="src/composes/matrix/sparse_matrix.py"; MX="src/composes/matrix/matrix.py"
LA="src/composes/matrix/linalg.py"; CM="src/composes/composition/composition_model.py"

# ---- indexing / Space
p("Space construction accepts exactly the consistent inputs",
  "Space(matrix, id2row, id2column, row2id, column2id, element_shape=..) succeeds iff the row (and, when any column label is given, column) labels are distinct, the supplied dictionaries are exactly the inverse of the label lists, the label counts equal the matrix dimensions and the element shape multiplies to the number of columns; otherwise it raises ValueError (IndexError when a supplied dictionary maps to an index out of range). In an accepted space row2id and id2row (column2id and id2column) are mutually inverse.",
  "every matrix shape, every pair of label lists, every optional user supplied dictionary (including negative Python indices) and element shape",
  "the check relates two independent data structures of arbitrary size; tests only try a handful of lists",
  [SP+":Space.__init__", SU+":list2dict", SU+":assert_dict_match_list", SU+":assert_shape_consistent"])
p("Every reachable space is well formed",
  "After any finite sequence of successful API calls (construct with non-negative positions in any supplied dictionary, apply any transformation, vstack, to_dense, to_sparse, build a peripheral space, add_rows) every space object has distinct row labels, row2id inverse to id2row, column maps either empty or inverse to each other with one label per column, as many rows as labels, and an element shape whose product is the number of columns.",
  "every finite history of API calls on any number of spaces, with any arguments and any outcome of the numerical back ends",
  "histories are unbounded and combine freely",
  [SP+":Space", PS+":PeripheralSpace"])
p("get_row / get_rows return the vectors of the words asked for",
  "In a well formed space get_row(w) is the matrix row at the position of w in id2row, get_rows(ws) is the matrix whose i-th row is get_row(ws[i]) (repetitions and any order allowed), and both raise KeyError exactly when some word is not in the space.",
  "every well formed space with at least one column, dense or sparse, every word and every non-empty word list",
  "all words, orders and repetitions", [SP+":Space.get_row", SP+":Space.get_rows"])
p("Space.vstack keeps every word attached to its own vector",
  "vstack(s1, s2) succeeds iff the column labels and the column counts agree and no row label occurs in both; then the row labels are those of s1 followed by those of s2 and looking up any word yields the same vector as in the space it came from, whatever the dense/sparse types; a mismatch or a shared row label raises ValueError.",
  "every pair of well formed spaces with non-empty matrices, of any type and size, whose row dictionaries hold non-negative positions (as in every space built without supplying one)",
  "relates lookups before and after for all words", [SP+":Space.vstack", SU+":add_items_to_dict", MU+":get_type_of_largest", MU+":resolve_type_conflict"])
p("apply preserves row labels, records exactly one operation and keeps column labels aligned",
  "space.apply(t) returns a space with the same row labels in the same order and with its operation list extended by exactly one applied operation; scalings keep the column labels, dimensionality reductions drop them, feature selection keeps for every remaining column the label that column had before. The source space is not modified.",
  "every well formed space and every transformation, any outcome of SVD/NMF",
  "label/column alignment must hold for every matrix", [SP+":Space.apply", OP])
p("Conversions between dense and sparse never change a value",
  "to_dense, to_sparse, resolve_type_conflict and to_compatible_matrix_types return matrices with the same shape and entries as their inputs; resolve_type_conflict returns matrices all of one type, and it changes nothing when there is no conflict.",
  "every matrix list, every type assignment", "all matrices", [SP+":Space.to_dense", SP+":Space.to_sparse", MU+":resolve_type_conflict", MU+":to_compatible_matrix_types", MU+":get_type_of_largest"])
p("set_cooccurrence_matrix accepts a replacement matrix of the right shape",
  "Replacing the matrix of a well formed space by one of the same shape succeeds and the new matrix is used; a matrix with a different number of rows raises ValueError.",
  "every well formed space and replacement matrix", "the failing combinations depend on the relation of two sizes", [SP+":Space.set_cooccurrence_matrix", SU+":assert_shape_consistent"])
# ---- similarity queries
p("get_sim and get_sims on missing words",
  "get_sim(w1, w2, sim) returns 0.0 when either word is missing from its space and otherwise exactly the measure applied to the two row vectors, independent of dense/sparse types; get_sims(pairs) is the pointwise list of get_sim in input order and of the same length.",
  "every pair of spaces, every word pair list, every measure", "all words / lists", [SP+":Space.get_sim", SP+":Space.get_sims"])
p("get_neighbours returns the true top-n list",
  "get_neighbours(w, n, sim) returns min(n, number of rows) entries (none for n <= 0); they are distinct rows, ordered by non-increasing similarity with ties in row order, and no row left out is more similar than one returned. An unknown word raises KeyError.",
  "every space, optional second space, word, n (any integer) and measure", "sorting correctness on arbitrary data", [SP+":Space.get_neighbours", MX+":Matrix.sorted_permutation"])
p("get_neighbours scores equal get_sim scores",
  "Every (neighbour, score) pair returned by get_neighbours(w, n, sim, space2) satisfies score = get_sim(w, neighbour, sim, space2).",
  "every space pair, word, n, all four measures, all type combinations", "two different code paths (batched and pairwise) must agree on all vectors", [SP+":Space.get_neighbours", SP+":Space.get_sim", "src/composes/similarity/similarity.py", "src/composes/similarity/cos.py"])
p("Batched similarity equals pairwise similarity",
  "For each of cosine, dot product, Euclidean and Lin, entry i of get_sims_to_matrix(v, M) equals get_sim(v, M[i]).",
  "every vector and matrix with the same number of columns, dense or sparse, zero rows included", "different formulas, all inputs", ["src/composes/similarity/similarity.py", "src/composes/similarity/cos.py", "src/composes/similarity/dot_prod.py"])
p("sorted_permutation is a stable descending sort",
  "sorted_permutation returns a permutation of all row/column indices whose keys are non-increasing and which keeps the original order among equal keys.",
  "every key array", "all arrays", [MX+":Matrix.sorted_permutation"])
p("Cosine similarity is a bounded symmetric scale-free score",
  "Cosine similarity is symmetric, lies in [-1,1], is 0 when a vector is zero, is 1 of a non-zero vector with itself, and does not change when either vector is multiplied by a positive number; it is the inner product divided by the product of the lengths otherwise.",
  "all real vectors of any length", "an inequality over all vectors (Cauchy-Schwarz)", ["src/composes/similarity/cos.py"])
p("Euclidean similarity",
  "Euclidean similarity equals 1/(1+distance), is symmetric, lies in (0,1], equals 1 iff the vectors are equal, and decreases strictly with the distance.",
  "all real vectors", "all vectors", ["src/composes/similarity/euclidean.py"])
p("Lin similarity follows its documented formula",
  "Lin similarity is the sum of u_i+v_i over the components where both vectors are strictly positive divided by the sum of all components of both vectors (0 if that sum is 0); on non-negative vectors it lies in [0,1] and is symmetric.",
  "all real vectors", "the documented index set differs from the computed one only on special sign patterns", ["src/composes/similarity/lin.py", DM+":DenseMatrix.to_ones", SM+":SparseMatrix.to_ones"])
# ---- scalings
p("EPMI/PPMI/PLMI compute the documented formulas",
  "On a non-negative matrix with total T, EPMI gives x*T/(rowsum*colsum) (0 where x is 0, including all-zero rows and columns, no division by zero), PPMI gives max(0, log EPMI), PLMI gives count times PPMI; a matrix with a negative entry is rejected with ValueError.",
  "every non-negative matrix of any shape, dense or sparse", "all matrices incl. zero rows/columns", ["src/composes/transformation/scaling/epmi_weighting.py", "src/composes/transformation/scaling/ppmi_weighting.py", "src/composes/transformation/scaling/plmi_weighting.py", "src/composes/utils/py_matrix_utils.py:nonzero_invert"])
p("plog is max(0, log x) with 0 for x<1",
  "Plog weighting maps each x>=1 to log x and every other entry to 0, so the result is non-negative, and leaves the input matrix unchanged.",
  "all real matrices", "all inputs, both representations", ["src/composes/transformation/scaling/plog_weighting.py", DM+":DenseMatrix.plog", SM+":SparseMatrix.plog"])
p("RowNormalization makes non-zero rows unit length / unit sum",
  "After row normalization each row whose length (sum) was non-zero has length (sum) exactly 1 and is a scalar multiple of the original; all-zero-length (zero-sum) rows become zero rows; with the length criterion the operation is idempotent.",
  "all real matrices", "all inputs", ["src/composes/transformation/scaling/row_normalization.py"])
p("Normalization makes the whole matrix sum / length 1",
  "After Normalization the sum (Euclidean length) of all entries is 1 when it was non-zero before, otherwise the matrix is returned unchanged.",
  "all real matrices", "all inputs", ["src/composes/transformation/scaling/normalization.py"])
p("TopFeatureSelection keeps the best k columns",
  "TopFeatureSelection(k) keeps exactly min(k, number of columns) distinct columns, in non-increasing order of the criterion (sum or length) with ties in column order, no dropped column scores higher than a kept one, and the kept columns are copied unchanged; k<=0 is rejected.",
  "all matrices, k, criteria", "all inputs", ["src/composes/transformation/feature_selection/top_feature_selection.py", MX+":Matrix.sorted_permutation"])
p("SVD reduction returns at most k dimensions and M*V equals the reduced matrix",
  "Given any correct SVD from the numerical library, the reduced matrix has min(k, rank) columns (dense; min(k, dimensions returned) sparse), multiplying the original matrix by the stored transformation matrix gives exactly the reduced matrix, and if k >= rank all row inner products of the original are preserved; reducing to dimension 0 is rejected.",
  "all matrices, k, all valid SVDs (any sign choice)", "sign ambiguity and truncation, all matrices", [LA+":Linalg.svd", "src/composes/transformation/dim_reduction/svd.py", OP+":DimensionalityReductionOperation"])
p("NMF factors are non-negative and of the requested shape",
  "For a non-negative matrix, any random initialisation and any behaviour of the time limit, both factors computed by NMF have only non-negative entries and shapes (rows,k) and (k,columns); a matrix with a negative entry is rejected with ValueError.",
  "all matrices, k, random draws, time-outs", "iterative algorithm, all runs", [LA+":Linalg.nmf", LA+":Linalg._nmf_nlssubprob", "src/composes/transformation/dim_reduction/nmf.py"])
p("NMF never makes the reconstruction error worse than the initialisation",
  "The squared reconstruction error ||X-WH||^2 of the factors NMF returns is at most that of its initial factors, and never increases from one half-iteration to the next.",
  "all matrices and initialisations, any stopping time, any closeness test", "a monotonicity claim about every iteration of a line search", [LA+":Linalg.nmf", LA+":Linalg._nmf_nlssubprob"])
# ---- peripheral
p("Peripheral projection of core rows reproduces the core rows",
  "If a core space is obtained from a raw space by any sequence of scalings, feature selections and SVD reductions, then building a peripheral space from any selection of raw core rows gives exactly the corresponding rows of the core space's matrix.",
  "all raw spaces, all sequences of transformations (any length), all row selections", "unbounded transformation sequences", [PS+":PeripheralSpace._project_core_operations", OP])
p("Peripheral rows are independent of batching",
  "Building a peripheral space from some rows and then calling add_rows with more rows gives the same space as building it from all rows at once, for any split into batches.",
  "all core spaces, matrices, splits", "all histories of add_rows", [PS+":PeripheralSpace.__init__", PS+":PeripheralSpace.add_rows", OP])
p("A peripheral space has the column labels of its core",
  "For a core space produced by any sequence of apply calls from a raw space, a peripheral space built on it has the same column labels, the same number of columns, and the same list of operations.",
  "all histories of apply", "unbounded sequences", [PS+":PeripheralSpace._project_core_operations", SP+":Space.apply"])
p("Operations must be applied once before being projected",
  "Projecting an operation that was never applied raises IllegalStateError, applying an operation a second time raises IllegalStateError, and after one application projection does not change the stored state.",
  "all operations and call sequences", "call orders", [OP])
p("A failed add_rows leaves the peripheral space unchanged",
  "If add_rows raises (duplicate labels, wrong number of labels, incompatible matrix) the space still answers every query as before.",
  "all spaces and arguments", "every failure point", [PS+":PeripheralSpace.add_rows", SU+":add_items_to_dict"])
p("add_rows on a peripheral space does not affect other spaces",
  "Building a peripheral space from the matrix and row maps of an existing space and later adding rows to it does not change the existing space.",
  "all spaces, histories", "aliasing across histories", [PS+":PeripheralSpace.__init__", PS+":PeripheralSpace.add_rows", PS+":PeripheralSpace.build", "src/pipelines/build_peripheral_space.py:transform_raw_per_space"])
# ---- dense / sparse equivalence
p("Sparse row access reads the right stored entries",
  "For a well formed CSR matrix, indexing a row m[i] / m[i,:] returns the 1 x n matrix whose entries are exactly those of row i.",
  "all CSR matrices (empty rows anywhere), all valid i", "all index structures", [SM+":SparseMatrix.__getitem__"])
p("Sparse element-wise operations agree with the dense ones",
  "plog, get_non_negative, to_non_negative, to_ones, remove_small_values (for epsilon >= 0), assert_positive and norm computed on the stored entries of a sparse matrix give the same values as the dense implementation on the full matrix.",
  "all CSR matrices without duplicate entries, explicit zeros allowed", "all matrices", [SM, DM])
p("Sparse reshape is row-major and loses nothing",
  "SparseMatrix.reshape gives, for every new shape with the same number of cells, the same matrix as row-major dense reshape; reshaping back restores the original; any other shape raises ValueError and leaves the matrix unchanged.",
  "all CSR matrices and shapes", "index arithmetic over all shapes", [SM+":SparseMatrix.reshape", DM+":DenseMatrix.reshape"])
p("Sparse reshape index arithmetic does not overflow",
  "The linear positions and new coordinates computed by SparseMatrix.reshape in 32-bit arithmetic (64-bit when the matrix has at least 2^31-1 cells) equal the exact integers.",
  "all shapes up to 2^31-1 per dimension", "boundary values are out of reach of tests", [SM+":SparseMatrix.reshape"])
p("is_mostly_positive means more than half of the non-zero entries are positive",
  "is_mostly_positive returns True exactly when strictly more than half of the non-zero entries are positive, for dense and sparse matrices alike.",
  "all matrices", "integer division and zero handling for all counts", [DM+":DenseMatrix.is_mostly_positive", SM+":SparseMatrix.is_mostly_positive"])
p("all_close agrees between dense and sparse and is symmetric",
  "all_close gives the same answer for a dense and a sparse representation of the same pair of matrices, is reflexive, and does not depend on the order of its arguments.",
  "all matrix pairs", "all values", [DM+":DenseMatrix.all_close", SM+":SparseMatrix.all_close"])
p("Matrix algebra type and shape errors",
  "+, -, *, multiply, vstack and hstack on a dense and a sparse matrix raise TypeError; on matrices of one type they give the mathematical result when the shapes fit; vstack/hstack/multiply/* raise ValueError when the shapes do not fit; division by 0 raises ZeroDivisionError.",
  "all matrices", "all shapes", [MX, DM, SM])
p("scale_rows / scale_columns / padd_matrix",
  "scale_rows multiplies row i by the i-th value, scale_columns column j by the j-th value, padd_matrix appends one constant row or column; wrong lengths / axes raise ValueError.",
  "all matrices", "all shapes", [DM+":DenseMatrix.scale_rows", SM+":SparseMatrix.scale_rows", MU+":padd_matrix"])
# ---- composition
p("compose keeps exactly the valid tuples in order",
  "compose(data, spaces) returns a space whose row labels are the phrase strings of exactly those tuples whose two words are in their spaces, in input order; the row of each phrase is the model applied to the vectors of its own two words; if two valid tuples have the same phrase string, or none is valid, ValueError is raised.",
  "all data lists, spaces, models", "all inputs", [CM+":CompositionModel.compose", CM+":CompositionModel.valid_data_to_lists"])
p("compose/train on an empty data list raises ValueError",
  "Calling compose or train with no data raises ValueError (No valid data found).",
  "all models and spaces", "corner case of an unbound loop variable", [CM+":CompositionModel.valid_data_to_lists"])
p("Weighted additive composition",
  "WeightedAdditive(alpha,beta) composes to alpha*u+beta*v; the defaults are 0.5/0.5, and when only alpha is given beta is 1-alpha; non-numeric parameters raise TypeError.",
  "all parameters, vectors", "all vectors", ["src/composes/composition/weighted_additive.py"])
p("Dilation composition",
  "Dilation composes to (u.u)v+(lambda-1)(u.v)u for every pair of vectors and lambda (default 2).",
  "all vectors, lambda", "all vectors", ["src/composes/composition/dilation.py"])
p("Multiplicative composition",
  "Multiplicative composes to the component-wise product; vectors of different length raise ValueError. It cannot be trained: train(data, spaces, phrase_space) raises TypeError whatever the arguments.",
  "all vectors", "all vectors", ["src/composes/composition/multiplicative.py"])
p("Full additive composition",
  "FullAdditive(A=,B=) composes to A u + B v for matrices of any fitting shape; after training with intercept the composed vector is A u + B v + c. Composing with a FullAdditive that has not been trained raises TypeError.",
  "all matrices and vectors", "all inputs", ["src/composes/composition/full_additive.py"])
p("Full additive training and composition agree with the regression",
  "After training a FullAdditive model, composing a pair (u,v) gives exactly the prediction [u v 1]*X (or [u v]*X without intercept) of the regression solution X learned from the training rows. A FullAdditive built from given matrices has no learner: training it raises AttributeError.",
  "all training sets, learners, pairs", "block structure of the learned matrix for all sizes", ["src/composes/composition/full_additive.py"])
p("Lexical function composition multiplies the word's matrix with the argument vector",
  "LexicalFunction.compose gives for every tuple the product of the function word's matrix (its row reshaped row-major to element_shape) with the argument vector (extended by 1 with intercept); the element shape of the result drops the last dimension; the function space is not modified.",
  "all function spaces of any tensor order, all data", "all shapes", ["src/composes/composition/lexical_function.py"])
p("Lexical function training learns each function from exactly its own samples",
  "LexicalFunction.train yields one row per function word having at least MIN_SAMPLES valid samples (and no other), and composing with that row equals the regression prediction trained on exactly that word's valid (arg, phrase) rows in input order.",
  "all training data orders, learners, MIN_SAMPLES", "grouping of arbitrary data", ["src/composes/composition/lexical_function.py", "src/composes/utils/gen_utils.py:get_partitions"])
p("get_partitions finds the maximal runs",
  "On a list whose equal elements are adjacent get_partitions returns, in order, exactly the maximal runs of equal elements of length at least min_samples, as half-open index ranges with their key.",
  "all lists and thresholds >= 1", "all lists", ["src/composes/utils/gen_utils.py:get_partitions"])
p("Weighted additive training uses all valid samples and is least-squares optimal",
  "WeightedAdditive.train sets (alpha,beta) to a minimiser of the total squared error over all valid training samples.",
  "all training sets and phrase space sizes", "depends on the relation of sample count and chunk size", ["src/composes/composition/weighted_additive.py"])
p("Dilation training is least-squares optimal",
  "Dilation.train sets lambda to a minimiser of the total squared error over the training samples (2 when the samples carry no information about lambda).",
  "all training sets", "all real data", ["src/composes/composition/dilation.py"])
p("A composition model gives the same result whatever it composed before",
  "For a model whose parameters are fixed, compose(data, space) returns the same space - including column labels - regardless of earlier compose calls.",
  "all histories of compose calls", "state carried across calls", [CM+":CompositionModel.compose", CM+":composed_id2column"])
# ---- regression
p("Ridge regression returns the minimiser of its objective",
  "For lambda >= 0 and any correct pseudo-inverse, the matrix returned by ridge_regression minimises ||AX-B||^2 + lambda*||X||^2 (with intercept: over X and an unpenalised intercept row); the returned error is ||AX-B|| and the returned trace is the trace of the hat matrix.",
  "all matrices A, B of any size, all lambda >= 0", "an optimality claim over all matrices", [LA+":Linalg.ridge_regression"])
p("Least squares regression returns a minimiser for dense and sparse input",
  "lstsq_regression returns a minimiser of ||AX-B||^2 (with an added column of ones for the intercept) for dense input given a correct numpy lstsq and for sparse input given a correct pseudo-inverse; the two have the same error.",
  "all matrices", "all matrices", [LA+":Linalg.lstsq_regression", LA+":Linalg._sparse_lstsq_regression"])
p("Generalised cross validation picks the first minimiser",
  "With cross validation the ridge learner uses the first parameter in the range that minimises the GCV error among those where it is defined, and parameter 0 if it is defined nowhere.",
  "all parameter ranges and data", "all lists; stale value across iterations", ["src/composes/utils/regression_learner.py:RidgeRegressionLearner.train"])
p("Ridge learner configuration",
  "A ridge learner cross-validates unless a parameter is given or cross validation is switched off; an explicit crossvalidation argument always wins; no cross validation without a parameter is rejected with ValueError; unknown keyword arguments are rejected.",
  "all keyword combinations", "all combinations", ["src/composes/utils/regression_learner.py:RidgeRegressionLearner.__init__"])
# ---- io
p("Indexing structures read from a file are inverse and in first-occurrence order",
  "extract_indexing_structs returns for every requested field the list of distinct strings in order of first occurrence over all valid lines and the dictionary inverse to it; lines with too few fields are skipped; if nothing valid is found ValueError is raised.",
  "all file contents, field lists", "all files", [IO+":extract_indexing_structs"])
p("Reading a sparse file sums duplicate cells",
  "The matrix read from an sm file has in cell (r,c) the sum of the counts of all lines for that row and column string; lines whose strings are not listed are ignored; a non-empty line with fewer than three fields raises ValueError.",
  "all files, row and column lists", "all files", [IO+":read_sparse_space_data"])
p("Reading a dense file keeps the first line of each row",
  "The matrix read from a dm file has in the row of each listed string the values of its first line, zeros when it has none; a line with a different number of fields than the first raises ValueError.",
  "all files", "all files", [IO+":read_dense_space_data"])
p("Export to dm and build gives back the same space",
  "Exporting any space with whitespace-free labels in dm format and building it from the written data, row and column files gives a space with the same labels and exactly the same values.",
  "all spaces", "round trip over all spaces", [SP+":Space.export", SP+":Space.build", IO+":print_cooc_mat_dense_format", IO+":read_dense_space_data"])
p("Export to sm and build gives back the same space",
  "Exporting a space with column labels in sm format and building it from the written data, row and column files gives a space with the same labels and the same values.",
  "all spaces, dense and sparse, empty rows included", "round trip over all spaces; CSR traversal; number formatting", [SP+":Space.export", SP+":Space.build", IO+":print_cooc_mat_sparse_format", IO+":read_sparse_space_data"])
p("The sparse writer labels every stored entry correctly",
  "print_cooc_mat_sparse_format on a CSR matrix writes exactly one line per stored entry, in storage order, each with the row label, column label and value of that entry, for any pattern of empty rows.",
  "all CSR matrices", "pointer-chasing loop over all patterns", [IO+":print_cooc_mat_sparse_format"])
p("export without a format writes the matrix in the default dm format",
  "space.export(prefix) writes the matrix file prefix.dm and the row file (and the column file when there are column labels).",
  "all spaces, prefixes", "default branch", [SP+":Space.export"])
p("save/export work for any writable file name",
  "Saving or exporting to a plain file name in the current directory or to a path whose parent directories are missing succeeds, creating the directories.",
  "all paths and file-system states", "depends on path shape", [IO+":create_parent_directories", IO+":save"])
p("Space.build argument rules",
  "build raises ValueError when data or format is missing, the format is not sm/dm, or sm is requested without a column file; with dm and no column file the result has no column labels; a column list whose length differs from the matrix is rejected.",
  "all keyword combinations and files", "all combinations", [SP+":Space.build"])
# ---- utils
p("Cross-validation folds form a balanced partition",
  "For n >= 1 items and fold >= 1 get_split_indices returns min(fold, n) lists that together contain each of 0..n-1 exactly once and whose lengths differ by at most one, for every shuffle; fold <= 0 or n <= 0 raises ValueError.",
  "all n, fold, shuffles", "all sizes and random outcomes", ["src/composes/utils/crossvalidation_utils.py:get_split_indices"])
p("AUC is the probability that a positive outranks a negative",
  "auc(gold, prediction) equals the fraction of (positive, negative) pairs in which the positive has the higher score, ties counting one half; it lies in [0,1], does not depend on the order of the data and is invariant under strictly increasing transformations of the scores; a gold value other than 0/1 raises ValueError (called directly with fewer predictions than gold values: IndexError at the first gold value without a prediction, unless it or an earlier one is not 0/1).",
  "all gold/prediction arrays", "all arrays, ties", ["src/composes/utils/scoring_utils.py:auc"])
p("score dispatch",
  "score raises ValueError on arrays of different length and NotImplementedError on an unknown measure, and otherwise evaluates exactly the requested measure.",
  "all inputs", "all inputs", ["src/composes/utils/scoring_utils.py:score"])
# ---- pipelines
p("build_core_space writes one space per option combination",
  "build_spaces writes, for every combination of weighting, selection, reduction and normalization, the space obtained by applying them in that order to the input space, skipping none/unknown ones; combinations of valid distinct options get distinct file names.",
  "all option lists", "all combinations", ["src/pipelines/build_core_space.py"])
p("Command line options override the configuration file",
  "In the pipelines an option given on the command line takes precedence over the configuration file, the last occurrence wins, and options not given come from the configuration file or the documented default.",
  "all option lists and configuration files", "all combinations", ["src/pipelines/build_core_space.py:main", "src/pipelines/pipeline_utils.py:config_get"])
p("train_composition uses the lambda given on the command line",
  "Without cross validation the model is trained with the value of --lambda, whether or not --lambda_range is given; without --lambda the pipeline refuses to run.",
  "all option values", "Python 2 list comprehension scoping", ["src/pipelines/train_composition.py:main"])
p("The documented long options of compute_neighbours work",
  "--sim_measure <m> sets the similarity measure just like -m <m>.",
  "all values", "getopt abbreviation rules", ["src/pipelines/compute_neighbours.py:main"])
p("compute_similarities writes one scored line per non-blank input line",
  "For each measure the output has one line per non-blank input line, in order: the stripped line followed by get_sim of the words in the two requested columns; an unknown measure is skipped.",
  "all files, measures", "all files", ["src/pipelines/compute_similarities.py:compute_sim"])
p("Matrix-valued elements cannot be reduced or selected",
  "Applying a dimensionality reduction or a feature selection to a space whose elements are matrices (element shape with more than one component) raises IllegalOperationError and changes nothing.",
  "all such spaces", "the error path formats its message from the shape", ["src/composes/semantic_space/space.py:Space.assert_1dim_element"])
p("A supplied row dictionary keeps working when the space grows",
  "A row2id dictionary accepted by the constructor keeps addressing the right rows after later successful stacking or add_rows calls.",
  "all accepted dictionaries and growth histories", "dictionary values may be any Python index", ["src/composes/semantic_space/space.py:Space.__init__", "src/composes/utils/space_utils.py:assert_dict_match_list", "src/composes/semantic_space/peripheral_space.py:PeripheralSpace.add_rows"])
p("A wrong command line is reported by the exit status",
  "A pipeline called with an unknown option, a missing option argument or an argument for a flag exits with a non-zero status and writes nothing.",
  "all seven scripts, all argument lists", "getopt's abbreviation and error rules over all argument lists", ["src/pipelines/build_core_space.py:main", "src/pipelines/train_composition.py:main", "src/pipelines/compute_neighbours.py:main"])
p("read_tuple_list and read_list return the requested fields of every non-blank line",
  "read_tuple_list(file, fields=fs) returns, in order, one tuple per non-blank line with exactly the requested fields, and raises IndexError iff some non-blank line lacks one; without fields it returns all words. read_list returns the stripped non-blank lines, or the requested field of each.",
  "all file contents and field lists", "all files", ["src/composes/utils/io_utils.py:read_tuple_list", "src/composes/utils/io_utils.py:read_list"])
p("train_composition stores the requested model trained on the given data",
  "When train_composition ends normally, <out>/TRAINED_COMP_MODEL.<model>.<input>.pkl holds the requested model, trained with the requested learner on exactly the triples of the input file and the given spaces; no file other than it, the exported parameters and the log is touched; an unknown model is a ValueError.",
  "all options, files and spaces", "all option combinations and file systems", ["src/pipelines/train_composition.py:train_model"])
p("The --intercept option of train_composition is honoured",
  "The learner used by train_composition has an intercept iff the value of --intercept is True, whatever the regression (default lstsq).",
  "all option values", "all option combinations", ["src/pipelines/train_composition.py:train_model"])
p("The model names documented by train_composition are accepted",
  "Each of the documented values of --model (WeightedAdditive, FullAdditive, LexicalFunction, Dilation) trains the model of that name.",
  "all inputs", "all inputs", ["src/pipelines/train_composition.py:usage", "src/pipelines/train_composition.py:train_model"])
p("apply_composition stores the composed space",
  "When apply_composition ends normally, <out>/COMPOSED_SS.<class>.<input>.pkl holds the space composed by the named model with the given parameters (or the loaded model) from the triples of the input file and the argument spaces; only its output files are touched; giving both or neither of --model and --load_model exits with status 1.",
  "all options, files and spaces", "all option combinations and file systems", ["src/pipelines/apply_composition.py:apply_model", "src/pipelines/apply_composition.py:main"])
p("A model trained by train_composition is what apply_composition loads",
  "Running apply_composition --load_model on the file written by train_composition composes with exactly the trained model, with no file written in between.",
  "all histories of the two scripts", "two-process history through the file system", ["src/pipelines/train_composition.py:train_model", "src/pipelines/apply_composition.py:apply_model", "src/composes/utils/io_utils.py:save"])
p("build_peripheral_space stores the peripheral space of the core",
  "build_peripheral_space writes <out>/PER_SS.<input>.<core>.pkl holding the PeripheralSpace built from the core space and the raw input; in batch mode it does so for every matching pickle of the directory; only its output files are touched.",
  "all inputs, directories and file orders", "all directory contents and listing orders", ["src/pipelines/build_peripheral_space.py"])
p("compute_neighbours writes the neighbours of every input word",
  "compute_neighbours writes, for every non-blank input line in order, the word followed by one line per neighbour as returned by get_neighbours, to NEIGHBOURS.<input>.<spaces>.<measure>; an unknown measure is a ValueError.",
  "all inputs and spaces", "all files", ["src/pipelines/compute_neighbours.py:compute_neighbours"])
p("evaluate_similarities scores the two requested columns",
  "evaluate_similarities reports, for each requested measure in order, the score of the numbers in the two requested columns over all non-blank lines; it writes no file.",
  "all inputs", "all files", ["src/pipelines/evaluate_similarities.py:evaluate_sim"])
p("A missing required option is reported",
  "Each pipeline called without one of its required options exits with status 1 and leaves every file (except the log) as it was.",
  "all seven scripts, all argument lists", "all argument lists", ["src/pipelines/pipeline_utils.py:assert_option_not_none"])
p("The --log option accepts any writable file name",
  "A pipeline called with --log <file> logs to that file, also when the name has no directory part.",
  "all file names", "all file names and file systems", ["src/composes/utils/log_utils.py:config_logging", "src/composes/utils/io_utils.py:create_parent_directories"])
p("Exported model parameters read back as the trained ones",
  "export of a WeightedAdditive or Dilation model writes its parameters by name, each within 1e-6 of the parameter; export of a FullAdditive model writes matrices A, B and, with an intercept, a column c such that the model maps u, v to A u + B v + c; a Multiplicative model raises IllegalOperationError and an untrained FullAdditive or LexicalFunction model raises IllegalStateError, and nothing is written.",
  "all models and file names", "all parameter values", ["src/composes/composition/composition_model.py:CompositionModel.export", "src/composes/composition/weighted_additive.py:WeightedAdditive._export"])
p("--help always works",
  "Each pipeline called with -h or --help before any other option exits with status 0 and writes nothing.",
  "all seven scripts, all argument lists", "all argument lists", ["src/pipelines/build_core_space.py:main"])
p("Column numbers start at one",
  "compute_similarities and evaluate_similarities use the words in the requested columns, counted from 1, and reject a column number that a line does not have.",
  "all column numbers and files", "Python's negative indices", ["src/pipelines/compute_similarities.py:compute_sim", "src/pipelines/evaluate_similarities.py:evaluate_sim"])
p("The two space-building scripts agree on the core's own data",
  "build_core_space followed by build_peripheral_space on the same input data and the stored core space gives a peripheral space with the same row labels and the same vectors as the core.",
  "all inputs and option combinations", "two-process history through the file system, all operations", ["src/pipelines/build_core_space.py:build_spaces", "src/pipelines/build_peripheral_space.py:transform_raw_per_space", "src/composes/semantic_space/peripheral_space.py:PeripheralSpace"])
p("An interrupted script leaves at most one broken file",
  "Whenever a pipeline is interrupted - by an exception, sys.exit or the death of the process at any moment - every file on the disk is as before the run or is a complete, correct output, with the exception of at most one of the output files; no directory disappears.",
  "all inputs, options, disks and interruption points", "all interruption points", ["src/pipelines/build_core_space.py:build_spaces", "src/pipelines/compute_similarities.py:compute_sim", "src/pipelines/compute_neighbours.py:compute_neighbours", "src/pipelines/train_composition.py:train_model", "src/pipelines/apply_composition.py:apply_model", "src/composes/utils/io_utils.py:save"])
p("save replaces a file atomically",
  "At every moment while save overwrites a file, the file has either its complete old content or its complete new content.",
  "all files, contents and interruption points", "all interruption points", ["src/composes/utils/io_utils.py:save"])
p("An interrupted script can be run again",
  "A pipeline interrupted at any moment and run again with the same arguments succeeds whenever the uninterrupted run does, and leaves the disk in the same state, provided that no output overwrites an input.",
  "all inputs, options, disks and interruption points", "all interruption points", ["src/pipelines/build_core_space.py:build_spaces", "src/pipelines/build_peripheral_space.py:build_space", "src/pipelines/compute_similarities.py:compute_sim", "src/pipelines/compute_neighbours.py:compute_neighbours", "src/pipelines/train_composition.py:train_model", "src/pipelines/apply_composition.py:apply_model"])
p("Transformations never change the matrices they are given",
  "Whatever a program has done before, applying a scaling, feature selection, dimensionality reduction, projection, Lin similarity or lexical function composition, any arithmetic, slicing or stacking, and any constructor leaves every existing matrix and array as it was (also when it raises an exception), and computes the documented result, although several of them use plog(), to_non_negative(), to_ones() or reshape(), which change a matrix in place.",
  "all histories of calls, all matrices, dense and sparse", "aliasing: all histories of calls and all sharing patterns", ["src/composes/transformation/scaling/ppmi_weighting.py:PpmiWeighting.apply", "src/composes/transformation/scaling/plog_weighting.py:PlogWeighting.apply", "src/composes/semantic_space/operation.py:DimensionalityReductionOperation.project", "src/composes/similarity/lin.py:LinSimilarity._sim", "src/composes/composition/lexical_function.py:LexicalFunction._compose", "src/composes/matrix/dense_matrix.py:DenseMatrix.plog"])
p("The result of a transformation is independent of its argument",
  "After y = transformation.apply(x) (or any method returning a new matrix), changing y in place any number of times leaves x as it is, and changing x leaves y as it is.",
  "all histories, all transformations, all sequences of in-place calls", "aliasing: all later histories", ["src/composes/transformation/scaling/normalization.py:Normalization.apply", "src/composes/matrix/matrix.py:Matrix.copy"])
p("An in-place method changes only the matrix it is called on",
  "plog(), to_non_negative(), to_ones() and reshape() give the receiver its documented value and leave every other matrix of the program as it was.",
  "all histories of calls, all matrices", "aliasing: all histories of calls and all sharing patterns", ["src/composes/matrix/dense_matrix.py:DenseMatrix.__init__", "src/composes/matrix/dense_matrix.py:DenseMatrix.plog", "src/composes/matrix/sparse_matrix.py:SparseMatrix.__init__", "src/composes/matrix/sparse_matrix.py:SparseMatrix.plog"])
p("Every NMF initialisation is a valid starting point",
  "For a non-negative matrix with at least one usable singular triple (for a dense one: a singular value above 1e-12), Nmf.nndsvd_init does not raise (in particular it never divides by the length of an empty section) and returns non-negative factors of the requested inner dimension whose rank-one parts are the NNDSVD sections of the singular triples, padded with zeros when the rank is smaller; a dense matrix without one raises ValueError; Nmf.random_init returns columns and rows of the matrix; nmf started from either gives non-negative factors that are not worse.",
  "all non-negative matrices, dense and sparse, all dimensions, all random picks", "all matrices; the division by a zero length would only show for special sign patterns", ["src/composes/transformation/dim_reduction/nmf.py:Nmf.nndsvd_init", "src/composes/transformation/dim_reduction/nmf.py:Nmf.random_init", "src/composes/matrix/dense_matrix.py:DenseMatrix.nary_hstack"])
p("The numbers of a space built from files are those of the data file",
  "Space.build: with format sm the component of word w in dimension c is the sum of the counts on the lines for (w, c); with format dm the components of w are the numbers on the first line starting with w; a file with a malformed line is refused.",
  "all files and file systems", "all file contents", ["src/composes/semantic_space/space.py:Space.build", "src/composes/utils/io_utils.py:read_sparse_space_data", "src/composes/utils/io_utils.py:read_dense_space_data"])
p("A peripheral space built from files has its counts under the right columns",
  "PeripheralSpace.build on an untransformed core: the component of w in the core's dimension c is the sum of the counts that the data file gives for (w, c).",
  "all files, column files and cores", "all orders of the column file", ["src/composes/semantic_space/peripheral_space.py:PeripheralSpace.build"])
p("SVD reduction loses as little as possible",
  "Svd(k): the reduced vectors, expanded again with the transformation matrix, are at least as close to the original matrix (sum of squared differences) as any product of two matrices with inner dimension at most k; exactly when no singular value lies strictly between 0 and the tolerance 1e-12, otherwise up to the number of singular values times 1e-24.",
  "all non-empty matrices, dense and sparse, all k > 0, all competing factorisations", "all matrices and all competing factorisations", ["src/composes/transformation/dim_reduction/svd.py:Svd.apply", "src/composes/matrix/linalg.py:Linalg.svd"])
p("SVD reduction never moves words apart",
  "space.apply(Svd(k)): the Euclidean similarity of any two words does not decrease and no word vector becomes longer; when k is at least the rank of a dense matrix, the dot, cosine and Euclidean similarities of all words are unchanged.",
  "all spaces, all k > 0, all pairs of words", "all spaces and dimensions", ["src/composes/semantic_space/space.py:Space.apply", "src/composes/transformation/dim_reduction/svd.py:Svd.apply", "src/composes/similarity/euclidean.py:EuclideanSimilarity"])
p("Normalisation does not change cosines",
  "Applying RowNormalization or Normalization (by length, or by sum to a non-negative space) to a space changes no cosine similarity and no list of cosine neighbours; also between two spaces normalised independently.",
  "all spaces, words and neighbour counts", "all spaces", ["src/composes/transformation/scaling/row_normalization.py:RowNormalization.apply", "src/composes/transformation/scaling/normalization.py:Normalization.apply", "src/composes/similarity/cos.py:CosSimilarity", "src/composes/semantic_space/space.py:Space.get_neighbours"])
p("Association weights do not depend on the corpus size",
  "Multiplying all counts of a matrix by one positive number leaves EPMI, PPMI and the normalisations unchanged and multiplies PLMI by that number (Normalization of a matrix whose total is 0 leaves it alone, so there the factor stays).",
  "all non-empty matrices and positive factors", "all matrices and factors", ["src/composes/transformation/scaling/epmi_weighting.py:EpmiWeighting.apply", "src/composes/transformation/scaling/ppmi_weighting.py:PpmiWeighting.apply", "src/composes/transformation/scaling/plmi_weighting.py:PlmiWeighting.apply"])
p("The order of the words does not matter",
  "Two spaces with the same words and vectors in different row order, transformed by the same sequence of scalings and feature selections, again have the same words with the same vectors, columns and similarities.",
  "all spaces, all reorderings, all sequences of scalings and feature selections", "all reorderings and sequences", ["src/composes/semantic_space/space.py:Space.apply", "src/composes/transformation/feature_selection/top_feature_selection.py:TopFeatureSelection.apply"])
p("A word is its own nearest neighbour",
  "get_neighbours(w, n) by Euclidean similarity, or by cosine for a word whose vector is not zero: no score exceeds 1, the best score is exactly 1, and w itself is in the list with score 1 unless the list is full of words with score 1 that come before it; always when n is at least the number of words.",
  "all spaces, words and n > 0", "all spaces", ["src/composes/semantic_space/space.py:Space.get_neighbours", "src/composes/similarity/cos.py:CosSimilarity", "src/composes/similarity/euclidean.py:EuclideanSimilarity"])
p("Training recovers a model that explains the data exactly",
  "If some scalar (Dilation), some pair of weights (WeightedAdditive, phrase space with fewer than 15 rows, because training drops the last partial chunk), some pair of matrices and offset (FullAdditive with LstsqRegressionLearner) or some matrix for each function word (LexicalFunction with LstsqRegressionLearner) maps the constituents of every training triple exactly to the phrase vector, then train succeeds and compose on the training data gives back exactly the phrase vectors, with the phrases as row labels and the columns of the phrase space.",
  "all spaces, all training data, all generating parameters", "all training sets and all parameters", ["src/composes/composition/composition_model.py:CompositionModel.train", "src/composes/composition/composition_model.py:CompositionModel.compose", "src/composes/composition/dilation.py:Dilation._train", "src/composes/composition/weighted_additive.py:WeightedAdditive._train2", "src/composes/composition/full_additive.py:FullAdditive._train", "src/composes/composition/lexical_function.py:LexicalFunction.train"])
p("The order of the features does not matter",
  "Two spaces with the same words and the same features in different column order have the same similarities and the same neighbours, and any sequence of scalings applied to both gives again spaces with the same vectors up to that column order.",
  "all spaces, all reorderings of the columns, all sequences of scalings", "all reorderings and sequences", ["src/composes/semantic_space/space.py:Space.apply", "src/composes/semantic_space/space.py:Space.get_sim", "src/composes/semantic_space/space.py:Space.get_neighbours"])
p("Stacking many matrices is stacking them one after the other",
  "nary_vstack and nary_hstack of matrices of one type give the result of repeated vstack and hstack (also the same exception), the rows of the result of nary_vstack are the rows of the matrices one after the other, and an empty list is refused with ValueError.",
  "all lists of matrices, dense and sparse", "all lengths and shapes", ["src/composes/matrix/dense_matrix.py:DenseMatrix.nary_vstack", "src/composes/matrix/sparse_matrix.py:SparseMatrix.nary_vstack", "src/composes/matrix/dense_matrix.py:DenseMatrix.nary_hstack", "src/composes/matrix/dense_matrix.py:DenseMatrix.vstack"])
p("Batch runs refuse a wrong input directory and skip files of other kinds",
  "The batch modes of compute_similarities, evaluate_similarities and build_peripheral_space raise ValueError if the input directory does not exist and OSError if it is a regular file; if no file name in it matches, nothing is computed and no file is written or changed.",
  "all file systems, directory names and other options", "all file systems", ["src/pipelines/compute_similarities.py:compute_sim_batch", "src/pipelines/evaluate_similarities.py:evaluate_sim_batch", "src/pipelines/build_peripheral_space.py:build_space_batch"])
p("A misspelt or meaningless constructor argument is refused",
  "RowNormalization, Normalization, TopFeatureSelection, LstsqRegressionLearner, FullAdditive and LexicalFunction raise InvalidArgumentError for any keyword they do not document, whatever the other arguments are; the normalisations use exactly the given criterion or the documented default and refuse any other value; an integer dimension of TopFeatureSelection, Svd or Nmf is accepted exactly when it is positive; the regression_learner and MIN_SAMPLES setters accept exactly learners and integers.",
  "all keyword dictionaries and values", "all combinations of keywords and values", ["src/composes/transformation/scaling/row_normalization.py:RowNormalization.__init__", "src/composes/transformation/scaling/normalization.py:Normalization.__init__", "src/composes/transformation/feature_selection/feature_selection.py:FeatureSelection", "src/composes/transformation/dim_reduction/dimensionality_reduction.py:DimensionalityReduction", "src/composes/composition/lexical_function.py:LexicalFunction.set_regression_learner"])
p("A constructor uses every argument it is given or refuses it",
  "LexicalFunction(function_space, intercept, learner) and FullAdditive(A, B, learner): either every given argument has its documented type and is stored in the new object, or the constructor raises.",
  "all keyword dictionaries and values", "all combinations of keywords and values", ["src/composes/composition/lexical_function.py:LexicalFunction.__init__", "src/composes/composition/full_additive.py:FullAdditive.__init__"])
p("The documented defaults of LexicalFunction hold",
  "A LexicalFunction created without arguments trains with the documented defaults: MIN_SAMPLES is 3 and the learner is RidgeRegressionLearner(param=1).",
  "all training data that leave the properties unset", "the default is observable only through which trainings succeed and with what", ["src/composes/composition/lexical_function.py:LexicalFunction"])
p("Exporting and reading again twice is the same as once",
  "After one round trip through the sparse text format (export, then Space.build), every further round trip gives back exactly the same space: the same words, columns and numbers.",
  "all spaces, all numbers of round trips", "all spaces and rounding effects", ["src/composes/semantic_space/space.py:Space.export", "src/composes/semantic_space/space.py:Space.build", "src/composes/utils/io_utils.py:print_cooc_mat_sparse_format"])
p("Projecting new words into a reduced core never moves them apart",
  "Words added through a PeripheralSpace to a core reduced with Svd(k): the Euclidean similarity of two new words, or of a new word and a core word, is at least what it is without the reduction, and no vector is longer; a projection possible without the reduction is possible with it.",
  "all cores, transformation histories, new words and k > 0", "all spaces and dimensions", ["src/composes/semantic_space/peripheral_space.py:PeripheralSpace.__init__", "src/composes/semantic_space/peripheral_space.py:PeripheralSpace.__init__"])
p("The order of the training data does not matter",
  "train on the same triples in another order gives the same model (or the same exception), for Dilation, WeightedAdditive, FullAdditive and LexicalFunction.",
  "all training data, all reorderings, all learners", "all reorderings", ["src/composes/composition/composition_model.py:CompositionModel.train", "src/composes/composition/weighted_additive.py:WeightedAdditive._train2", "src/composes/composition/dilation.py:Dilation._train", "src/composes/composition/full_additive.py:FullAdditive._train", "src/composes/composition/lexical_function.py:LexicalFunction.train"])
p("A composed vector depends only on its own words",
  "compose with one model and one pair of spaces: a triple (w1, w2, phrase) that occurs in two data lists gets the same vector in both results, whatever the other triples are and however they are ordered; composing a list in two parts gives the rows of the whole, one part after the other.",
  "all models (also lexical functions), all spaces, all data lists", "all data lists", ["src/composes/composition/composition_model.py:CompositionModel.compose", "src/composes/composition/lexical_function.py:LexicalFunction.compose"])
p("Multiplicative and additive composition do not depend on the order of the constituents",
  "compose of Multiplicative, and of WeightedAdditive when the weights are exchanged too: exchanging the two words of every triple together with the two argument spaces gives the same phrases with the same vectors.",
  "all spaces, weights and data lists", "all spaces and data", ["src/composes/composition/multiplicative.py:Multiplicative._compose", "src/composes/composition/weighted_additive.py:WeightedAdditive._compose"])
p("Stacking spaces keeps their similarities",
  "After Space.vstack(s1, s2) the similarity of any two words is what get_sim computes from the spaces they come from, with the second one as space2; for two words of one part it is their similarity in that part.",
  "all pairs of stackable spaces, all words and measures", "all spaces", ["src/composes/semantic_space/space.py:Space.vstack", "src/composes/semantic_space/space.py:Space.get_sim"])
p("The similarity and evaluation scripts fit together",
  "evaluate_similarities run on the file written by compute_similarities, with the gold column of the original word list and the column after its last field as the predicted column, evaluates exactly the gold scores of the list against get_sim of the word pairs, line by line; it succeeds exactly when every gold field is a number and the correlation is defined.",
  "all word lists, spaces, measures and columns", "all files and spaces", ["src/pipelines/compute_similarities.py:compute_sim", "src/pipelines/evaluate_similarities.py:evaluate_sim", "src/composes/utils/scoring_utils.py:score"])
p("A larger ridge parameter shrinks the model and never improves the fit",
  "RidgeRegressionLearner: training on the same data with a larger parameter gives coefficients of no larger norm and a training error that is no smaller; parameter 0 gives a least-squares solution; the error of every parameter lies between the least-squares error and that of the zero model.",
  "all training matrices, all pairs of parameters, with and without intercept", "all matrices and parameters", ["src/composes/utils/regression_learner.py:RidgeRegressionLearner.train", "src/composes/matrix/linalg.py:Linalg.ridge_regression"])
p("Asking for fewer neighbours gives the first of the longer list",
  "get_neighbours(word, n) is the beginning of get_neighbours(word, m) for n <= m, with the same measure and second space.",
  "all spaces, words, measures, n and m", "all spaces including ties", ["src/composes/semantic_space/space.py:Space.get_neighbours"])
p("Similarity between two spaces does not depend on the direction",
  "s1.get_sim(w1, w2, measure, s2) equals s2.get_sim(w2, w1, measure, s1), and within one space get_sim(w1, w2) equals get_sim(w2, w1), for every measure.",
  "all pairs of spaces of one width, all words and measures", "all spaces", ["src/composes/semantic_space/space.py:Space.get_sim", "src/composes/similarity/similarity.py:Similarity.get_sim"])
p("Repeating a normalisation or selecting features in steps changes nothing",
  "Normalization applied twice gives the result of applying it once; TopFeatureSelection(k) followed by TopFeatureSelection(j) gives the same matrix and labels as TopFeatureSelection(min(j, k)).",
  "all matrices and spaces, criteria, j and k", "all matrices including ties", ["src/composes/transformation/scaling/normalization.py:Normalization.apply", "src/composes/transformation/feature_selection/top_feature_selection.py:TopFeatureSelection.apply"])
p("Linear reductions commute with composition",
  "Composing in a space reduced with Svd (weighted additive) or TopFeatureSelection (weighted additive and multiplicative) gives the vectors obtained by composing in the full space and projecting the result through the reduced core as a PeripheralSpace.",
  "all spaces, dimensions, weights and data lists", "all spaces and data", ["src/composes/composition/composition_model.py:CompositionModel.compose", "src/composes/semantic_space/peripheral_space.py:PeripheralSpace.__init__", "src/composes/semantic_space/peripheral_space.py:PeripheralSpace.__init__"])
p("Processes on different files do not influence each other",
  "Processes that share a disk and take turns at system calls in any order: if no process changes a file or directory that another one looks at when run alone, then in every interleaving each process that ends has the outcome it has alone and finds the disk as if it had run alone; it ends after as many turns as it needs alone; what no process changes is never changed; two complete interleavings end in the same disk.",
  "all numbers of processes, all programs made of stat, listdir, mkdir, read, open-for-writing and write calls, all schedules", "all interleavings of unboundedly many steps", ["src/composes/utils/io_utils.py:save", "src/composes/utils/io_utils.py:load", "src/composes/utils/io_utils.py:create_parent_directories"])
p("Scripts may run at the same time",
  "Runs of the seven scripts, started together with existing output directories, none of which may produce a file that another one reads or produces: whatever the schedule, each run that ends prints the numbers (or raises the exception) and leaves the files it leaves when run alone, and every file that is not an output or log file is untouched. Different scripts never produce the same file name in one output directory; runs with unrelated output directories never do either.",
  "all sets of runs of all seven scripts, all settings, disks and schedules", "all interleavings", ["src/pipelines/build_core_space.py:main", "src/pipelines/build_peripheral_space.py:main", "src/pipelines/compute_similarities.py:main", "src/pipelines/compute_neighbours.py:main", "src/pipelines/evaluate_similarities.py:main", "src/pipelines/train_composition.py:main", "src/pipelines/apply_composition.py:main"])
p("Different files can be saved at the same time",
  "Processes that save different files with io_utils.save (or script runs that produce different files) succeed in every interleaving whenever each succeeds alone, and every file ends with what was saved there.",
  "all numbers of processes, paths, contents and schedules", "all interleavings", ["src/composes/utils/io_utils.py:save", "src/composes/utils/io_utils.py:create_parent_directories", "src/pipelines/build_core_space.py:print_space"])
p("Loading a file while it is saved gives the old or the new content",
  "A process that loads a file while another process saves it gets the content before the save or the content after it.",
  "all contents, all schedules, any number of reading processes", "all interleavings", ["src/composes/utils/io_utils.py:save", "src/composes/utils/io_utils.py:load"])
p("Loading checks the file and its type",
  "io_utils.load(f, T) raises IOError when f does not exist, TypeError when the pickled object is not an instance of T, and returns the object otherwise. A script that is given a missing space or model file, or a pickle of another kind, stops with that exception before it has written anything (compute_similarities skips a first file of another kind instead and still writes nothing).",
  "all files, pickled objects, types, disks and script settings", "all disks and moments", ["src/composes/utils/io_utils.py:load", "src/composes/utils/gen_utils.py:assert_is_instance", "src/pipelines/build_core_space.py:build_spaces", "src/pipelines/build_peripheral_space.py:transform_raw_per_space", "src/pipelines/compute_similarities.py:compute_sim", "src/pipelines/compute_neighbours.py:compute_neighbours", "src/pipelines/train_composition.py:train_model", "src/pipelines/apply_composition.py:apply_model"])
p("Indexing a matrix",
  "m[i], m[[i, ...], :] and m[:, [j, ...]] return exactly the rows or columns asked for, in the order asked for and in the class of m, negative row numbers counting from the end; any index out of range raises IndexError; selecting rows of selected rows is selecting once, and rows and columns may be selected in either order.",
  "all matrices of both classes, all index lists", "all shapes and indices", ["src/composes/matrix/dense_matrix.py:DenseMatrix.__getitem__", "src/composes/matrix/sparse_matrix.py:SparseMatrix.__getitem__"])
p("Which files Space.build accepts",
  "Space.build on readable files. dm format: it returns a space exactly when there is a row label, the first line and every non-blank line of the data have a label and the same positive number of further fields, which is also the number of different labels in the column file if one is given, and the fields of the lines that are used (the first line of each listed row) are numbers. sm format with a column file: exactly when there is a row label and a column label and every non-blank data line has at least three fields, the third being a number if the first two are listed labels. Everything else raises ValueError (StopIteration for a dm file without any line when the label files are in order); a file that does not exist raises IOError.",
  "all contents of the data, row and column files, all settings", "all texts", ["src/composes/semantic_space/space.py:Space.build", "src/composes/utils/io_utils.py:extract_indexing_structs", "src/composes/utils/io_utils.py:read_sparse_space_data", "src/composes/utils/io_utils.py:read_dense_space_data"])
p("With a correct numerical library training succeeds and is optimal",
  "If numpy's pinv, lstsq and svd do what they promise: every regression learner that can be constructed succeeds on every pair of non-empty training matrices of one class with equal numbers of rows; WeightedAdditive and FullAdditive can be trained on all data with at least one usable triple, and LexicalFunction exactly when some function word has at least MIN_SAMPLES usable samples (ValueError otherwise); with a LstsqRegressionLearner the full additive model and every lexical function have the least total squared error over the usable samples (of the word) among all affine maps, and with a RidgeRegressionLearner of fixed parameter the lexical functions have the least penalised error.",
  "all constructed learners, training matrices, spaces, training lists and thresholds", "all data, and optimality over all linear maps", ["src/composes/utils/regression_learner.py:RidgeRegressionLearner.train", "src/composes/utils/regression_learner.py:LstsqRegressionLearner.train", "src/composes/matrix/linalg.py:Linalg.lstsq_regression", "src/composes/matrix/linalg.py:Linalg.ridge_regression", "src/composes/composition/full_additive.py:FullAdditive._train", "src/composes/composition/weighted_additive.py:WeightedAdditive._train2", "src/composes/composition/lexical_function.py:LexicalFunction.train"])
p("Malformed lines and numbers: the first one decides",
  "evaluate_similarities: when the lines before it are fine, a line that lacks one of the two columns raises IndexError and a column that is not a number raises ValueError, the first column being looked at first; every input either has all its numbers or such a first bad line. compute_similarities and compute_neighbours: the first line that lacks a column raises IndexError, the first pair or word for which the similarity or the neighbours are not defined raises that error (KeyError for an unknown word). A --lambda, --lambda_range, --alpha or --beta that is not a number, and a column or count that is not a whole number, raises ValueError; a whole number is a decimal numeral with an optional sign and stands for its value.",
  "all input texts, columns, spaces, measures and option values", "all texts", ["src/pipelines/evaluate_similarities.py:evaluate_sim", "src/pipelines/compute_similarities.py:compute_sim", "src/pipelines/compute_neighbours.py:compute_neighbours", "src/pipelines/train_composition.py:main", "src/pipelines/apply_composition.py:main"])
p("Training and applying a model from end to end",
  "If numpy's routines do what they promise, the spaces can be loaded and have fitting shapes (vectors of one length for WeightedAdditive and Dilation), at least one line of the data is usable (its words have vectors) and the output directory exists or can be created: train_composition with weighted_add, dilation, full_add or lexical_func succeeds and leaves the model trained as documented on the lines of the file, also when started from a command line; without a usable line it raises ValueError (UnboundLocalError for a file without lines). A stored model so trained can be applied by apply_composition --load_model to spaces of the same width, at once or later: if some line is composable and the composable phrases are distinct, it succeeds, and the composed space has exactly the composable phrases as rows, in input order, and the columns of the phrase space.",
  "all disks, spaces, data files, learners and settings", "all data and disks", ["src/pipelines/train_composition.py:train_model", "src/pipelines/train_composition.py:main", "src/pipelines/apply_composition.py:apply_model", "src/composes/composition/composition_model.py:CompositionModel.train", "src/composes/composition/composition_model.py:CompositionModel.compose", "src/composes/composition/lexical_function.py:LexicalFunction.train"])
p("Building core spaces from end to end",
  "If numpy's and scipy's routines do what they promise: Svd(k) of a non-empty dense matrix succeeds exactly when the matrix stretches some unit vector to more than 1e-12 (and raises ValueError otherwise), Svd(k) of a sparse matrix with a non-zero entry succeeds; build_core_space.py with documented weightings, selections, reductions and normalizations on a consistent, non-empty, non-negative space of plain vectors succeeds and stores the result of every combination, provided that what is reduced by SVD is not zero in that sense, that the random draws of NMF are row and column numbers of the matrix and that the output directory can be written; and build_peripheral_space.py on the same input and any stored core space whose reduction is not NMF then succeeds too and stores a space with the labels and values of the core space.",
  "all spaces, option lists, disks and matrices", "all spaces and combinations of options", ["src/composes/transformation/dim_reduction/svd.py:Svd.apply", "src/composes/transformation/dim_reduction/nmf.py:Nmf.apply", "src/pipelines/build_core_space.py:build_spaces", "src/pipelines/build_peripheral_space.py:build_space", "src/composes/semantic_space/space.py:Space.apply"])
p("A call on a composition model that raises leaves the model as it was",
  "If train or compose of a composition model raises an exception, the model afterwards composes and exports exactly as before the call, so that a caller who catches the exception can go on using it; after any sequence of calls, some of which raise, the model is the one determined by its successful trainings.",
  "all models, numerical libraries, training and composition data, spaces, exceptions and sequences of calls", "all histories and failures", ["src/composes/composition/composition_model.py:CompositionModel.train", "src/composes/composition/composition_model.py:CompositionModel.compose", "src/composes/composition/weighted_additive.py:WeightedAdditive.xxx", "src/composes/composition/dilation.py:Dilation._train", "src/composes/composition/full_additive.py:FullAdditive._train", "src/composes/composition/lexical_function.py:LexicalFunction.train"])
p("Writing the same content to the same file at the same time is harmless",
  "Processes that save files into existing directories at the same time, where those that save the same file save the same content: in every interleaving each returns normally, and once all processes that save a file have ended it holds that content; other files are untouched. Runs of the scripts at the same time in existing output directories, none of which reads an output file, all of which succeed alone, and which would leave the same content in the files they have in common: each ends as it ends alone, and in the end every output file is as each of its writers would have left it. In particular any number of simultaneous runs of the same command end as one run does, and leave what one run leaves.",
  "all numbers of processes, paths, contents, scripts, settings, disks and schedules", "all interleavings, including those in which one process truncates the file while another is in the middle of writing it", ["src/composes/utils/io_utils.py:save", "src/composes/utils/io_utils.py:create_parent_directories", "src/pipelines/build_core_space.py:main", "src/pipelines/compute_similarities.py:main", "src/pipelines/train_composition.py:main", "src/pipelines/apply_composition.py:main"])
p("A file saved by several processes at once holds what one of them saved",
  "When several processes save different contents to one file at the same time and all have returned normally, the file holds the content that one of them saved.",
  "all numbers of processes, contents and schedules", "all interleavings", ["src/composes/utils/io_utils.py:save"])
p("Repeating the training data does not change a trained model",
  "train on a list of triples repeated k times (every triple given k times) gives the model that train gives on the list (or the same exception), for Dilation, WeightedAdditive, FullAdditive and LexicalFunction: only the proportions of the training data matter.",
  "all training data, numbers of repetitions, spaces and learners", "all data and repetitions", ["src/composes/composition/composition_model.py:CompositionModel.train", "src/composes/composition/weighted_additive.py:WeightedAdditive._train2", "src/composes/composition/dilation.py:Dilation._train", "src/composes/composition/full_additive.py:FullAdditive._train", "src/composes/composition/lexical_function.py:LexicalFunction.train", "src/composes/matrix/linalg.py:Linalg.lstsq_regression", "src/composes/matrix/linalg.py:Linalg.ridge_regression"])
p("Configuration files",
  "A configuration file made of section headers [name], option lines (name = value or name: value, inside a section), indented lines that continue the option before them, and comment and blank lines is accepted; an option of the section of a script has the last value given to it there, else the last value in [DEFAULT], names being compared without regard to case, and other sections do not matter. Comment and blank lines can be inserted or removed anywhere in any file, and the final newline can be left out. An option before the first header, or a line of no such kind, is a ParsingError, which stops the script. Options can be moved from the command line to a file with one name=value per line: each script then has the same outcome.",
  "all files, section and option names, values, scripts, command lines and disks", "all texts", ["src/pipelines/pipeline_utils.py:config_get", "src/pipelines/build_core_space.py:main", "src/pipelines/build_peripheral_space.py:main", "src/pipelines/train_composition.py:main", "src/pipelines/apply_composition.py:main", "src/pipelines/compute_similarities.py:main", "src/pipelines/compute_neighbours.py:main", "src/pipelines/evaluate_similarities.py:main"])
p("The correlation scores",
  "If scipy.stats computes Pearson's and Spearman's coefficients as textbooks define them, then for gold scores and predictions of the same length, neither constant: both scores lie between -1 and 1 and are symmetric; the order of the pairs matters for none of the measures (in evaluate_similarities.py: neither the order of the lines nor blank lines); Pearson's score is unchanged by a change of scale and zero point of the predictions, Spearman's by every strictly increasing change, and reversing the predictions changes the sign; Pearson's score is 1 exactly when the predictions are the gold scores on another scale, Spearman's exactly when they order all items as the gold scores do.",
  "all lists of numbers, measures, rescalings and files", "all lists, permutations and monotone functions", ["src/composes/utils/scoring_utils.py:score", "src/composes/utils/scoring_utils.py:pearson", "src/composes/utils/scoring_utils.py:spearman", "src/composes/utils/scoring_utils.py:auc", "src/pipelines/evaluate_similarities.py:evaluate_sim"])
p("Association weights compare the counts with those expected by chance",
  "For a non-negative, non-zero count matrix let the expected count of a cell be row sum times column sum divided by the total. EPMI times the expected count is the count (so its average under the expected counts is 1); PPMI and PLMI of a cell are positive exactly when its count exceeds the expected one and 0 otherwise; they are 0 everywhere exactly when words and contexts are independent (every count is the expected one), and then EPMI is 1 in every non-empty cell; the mutual information of words and contexts is not negative and the PLMI weights add up to at least the total times the mutual information.",
  "all non-negative count matrices of both classes", "all real matrices", ["src/composes/transformation/scaling/epmi_weighting.py:EpmiWeighting.apply", "src/composes/transformation/scaling/ppmi_weighting.py:PpmiWeighting.apply", "src/composes/transformation/scaling/plmi_weighting.py:PlmiWeighting.apply"])
p("Reducing to fewer dimensions keeps the first of more dimensions",
  "If the numerical library returns the leading part of one decomposition of a matrix whatever the number of dimensions asked for, then Svd(j) gives the first columns of Svd(k) for j <= k, up to one common sign, and the same holds of the matrices used for projecting new vectors; going from k to j dimensions never lowers the Euclidean similarity of two words of a space and makes no vector longer.",
  "all matrices of both classes, spaces, words and dimensions j <= k", "all matrices and dimensions", ["src/composes/transformation/dim_reduction/svd.py:Svd.apply", "src/composes/matrix/linalg.py:Linalg.svd", "src/composes/semantic_space/space.py:Space.apply"])
p("After row normalisation by length the similarity measures agree",
  "After applying row normalisation with the length criterion to every space involved: the dot product similarity of any two words equals their cosine similarity (also for words without a vector and words with a zero vector); for words with non-zero vectors the Euclidean similarity is 1/(1+sqrt(2-2c)) where c is their cosine, which lies in [-1,1]; the neighbour lists by dot product and by cosine are identical including scores; and if no vector of the searched space and not that of the query is zero, the neighbour list by Euclidean similarity contains the same words in the same order.",
  "all spaces (dense or sparse, any size), all pairs of words, all n, with or without a second space", "It is an identity over all real matrices and all rankings with ties; tests compare a few numbers.", ["src/composes/transformation/scaling/row_normalization.py: RowNormalization.apply", "src/composes/similarity/cos.py: CosSimilarity", "src/composes/similarity/dot_prod.py: DotProdSimilarity", "src/composes/similarity/euclidean.py: EuclideanSimilarity", "src/composes/semantic_space/space.py: Space.get_sim, Space.get_neighbours"])
p("Feature selection keeps what matters",
  "Applying TopFeatureSelection(k) to a space never lowers the Euclidean similarity of two words; if at most k columns contain a value other than 0 (in particular if there are at most k columns; for criterion 'sum' the values are non-negative) no similarity of any of the four measures and no neighbour list changes; and no other choice of the same number of columns has a larger total (criterion 'sum') or a larger sum of squares (criterion 'length').",
  "all spaces, both criteria, all k > 0, all words, all measures, all competing column choices", "The optimality ranges over all subsets of columns and the similarity claims over all real matrices.", ["src/composes/transformation/feature_selection/top_feature_selection.py: TopFeatureSelection.apply", "src/composes/semantic_space/space.py: Space.apply, Space.get_sim, Space.get_neighbours"])
p("Special cases of the composition models",
  "FullAdditive with A = alpha*I and B = beta*I composes the same phrases to the same vectors as WeightedAdditive(alpha, beta); WeightedAdditive(1,0) gives every phrase the vector of its first word and (0,1) that of its second; the vector of a Dilation phrase is |u|^2 times the second word's vector with its part along the first word's vector u stretched by lambda (so lambda=1 gives |u|^2 v, and the parts orthogonal to u are only multiplied by |u|^2); in Multiplicative composition a vector of ones is neutral and a zero vector gives a zero phrase; a lexical function whose matrix is a*I multiplies its argument by a.",
  "all parameters, all spaces (dense or sparse), all data lists with known words, all directions orthogonal to the first word", "These are identities over all real vectors and matrices; tests use a few numbers.", ["src/composes/composition/weighted_additive.py: WeightedAdditive", "src/composes/composition/full_additive.py: FullAdditive", "src/composes/composition/dilation.py: Dilation", "src/composes/composition/multiplicative.py: Multiplicative", "src/composes/composition/lexical_function.py: LexicalFunction.compose"])
p("Rescaling the word vectors does not change the cosines of phrases",
  "For Multiplicative and Dilation composition, normalising the two argument spaces beforehand (each in its own way: by rows or as a whole, by length, or by sum for non-negative values) changes no cosine similarity between composed phrases and no neighbour list by cosine; for WeightedAdditive, whose result depends on the relative lengths of the words, the same holds when all numbers of both spaces are multiplied by one positive number.",
  "all pairs of spaces, all data lists, all parameters, all phrases, all n", "An invariance over all real matrices and all positive scalings.", ["src/composes/composition/composition_model.py: CompositionModel.compose", "src/composes/composition/multiplicative.py: Multiplicative", "src/composes/composition/dilation.py: Dilation", "src/composes/composition/weighted_additive.py: WeightedAdditive", "src/composes/transformation/scaling/row_normalization.py: RowNormalization", "src/composes/transformation/scaling/normalization.py: Normalization"])
p("Least squares and ridge regression with parameter 0 are the same learner",
  "Given numerical routines that keep their documented promises, a ridge regression learner with the parameter 0 (set explicitly, or the only value cross-validation can choose) returns exactly the coefficients of the least squares learner on all non-empty training matrices of one class with equal numbers of rows: among the solutions of least squared error, the shortest one. The least squares learner finds the same numbers on dense and on sparse data, although two different routines compute them. Hence a FullAdditive or LexicalFunction model trained with one learner raises the same exceptions or answers every compose call exactly like the one trained with the other.",
  "all training matrices, intercept settings, parameter grids of zeros, training data, word and phrase spaces, min_samples values, and later compose calls", "the problem usually has many solutions (collinear columns); tests on full-rank data cannot see whether two code paths (numpy lstsq, pseudo-inverse of the normal equations) choose the same one", ["src/composes/utils/regression_learner.py:RidgeRegressionLearner.train", "src/composes/matrix/linalg.py:Linalg.ridge_regression", "src/composes/composition/full_additive.py:FullAdditive._train", "src/composes/composition/lexical_function.py:LexicalFunction.train"])
p("compute_neighbours and compute_similarities print the same scores",
  "When compute_neighbours and compute_similarities are run on the same space file(s) with the same similarity measure, the NEIGHBOURS file consists of one block per word of its input and the SIMS file of one line per line of its input; and whenever v is printed as a neighbour of w in the first file and some input line of the second run has w and v in the two columns, the score printed after that line is, character for character, the one printed after v.",
  "all space files (one or two), input files, measures, numbers of neighbours, column choices and file systems in which the two runs succeed", "the two scripts compute the score by different code (get_sim on two vectors, the similarity functions on a whole matrix); tests compare a few words of toy spaces with one of them only", ["src/pipelines/compute_neighbours.py: compute_neighbours", "src/pipelines/compute_similarities.py: compute_sim", "src/composes/semantic_space/space.py: get_neighbours, get_sim", "src/composes/similarity/cos.py"])
p("Core spaces may be built in two runs of the script",
  "If a first run of build_core_space applies the first operations of a combination (weighting, selection, reduction, normalisation, in this order) and a second run reads the pickle it stored (--input_format=pkl) and applies the remaining ones, then the second run stores a result of the whole combination applied to the original input; without NMF it is byte for byte the pickle that a single run with the whole combination stores.",
  "Every library back end, input space and format, output directories, lists of documented options in both runs, every point at which the combination is split, every file system of the second run that holds the pickle of the first", "A test runs a handful of option lists; the equality has to hold for every space, every combination and every split point.", ["src/pipelines/build_core_space.py: build_spaces, apply_weighting, apply_reduction, apply_selection, apply_normalization, print_space", "src/composes/semantic_space/space.py: Space.apply", "src/composes/utils/io_utils.py: load, save"])
p("An exported core space can be used as an input again",
  "The files that build_core_space exports for a combination are an input for the scripts (their common prefix with --input_format=dm or sm): the same words, column labels and values are read.",
  "Every library back end, input, documented combination, output directory, file system and exported format", "The texts have to parse back for every space, label and number, and the run has to behave the same whatever files an earlier run left in the output directory.", ["src/pipelines/build_core_space.py: build_spaces, print_space", "src/composes/semantic_space/space.py: Space.export, Space.build", "src/composes/utils/io_utils.py:print_list", "src/pipelines/build_peripheral_space.py: build_raw_per_space"])
p("What regression does when numpy cannot compute a pseudo-inverse",
  "If the pseudo-inverse does not converge (numpy.linalg.LinAlgError), ridge_regression still returns: its result is W'B, where W is the training matrix with a column of ones if an intercept is used, whatever the parameter, with its true residual and the sum of squares of W as trace; it is not a minimiser in general. Ridge learners (with a parameter or cross validation) and sparse least squares learn this matrix. Every other exception of numpy, and every exception of the dense least-squares routine, is passed on.",
  "All training matrices of either class with as many rows, every parameter and parameter range, with and without intercept, every back end", "The branch is only reached when LAPACK fails, which a test cannot bring about with chosen matrices.", ["src/composes/matrix/linalg.py: Linalg.ridge_regression, Linalg.lstsq_regression, Linalg.pinv", "src/composes/utils/regression_learner.py: RidgeRegressionLearner.train"])
p("Trained models are homogeneous in the phrase vectors",
  "Multiplying every phrase vector of the training data by the same number multiplies what is learned by that number: the two weights of WeightedAdditive, the coefficient matrices of the least-squares and (cross-validated) ridge learners when the number is not 0, and hence every vector later composed with the trained FullAdditive or LexicalFunction model; the choice of the ridge parameter does not change, and training succeeds with the scaled vectors whenever there is a usable sample.",
  "all training data, argument and phrase spaces, factors, learners the constructors build, storage formats and later compositions, with an ideal pseudo-inverse and least-squares routine", "a test checks one factor on one training set; the claim includes the parameter selected by generalized cross-validation, for which the error at every grid point must scale alike.", ["src/composes/utils/regression_learner.py:LstsqRegressionLearner.train", "src/composes/utils/regression_learner.py:RidgeRegressionLearner.train", "src/composes/matrix/linalg.py:Linalg.ridge_regression", "src/composes/matrix/linalg.py:Linalg.lstsq_regression", "src/composes/composition/weighted_additive.py:WeightedAdditive.xxx", "src/composes/composition/full_additive.py:FullAdditive._train", "src/composes/composition/lexical_function.py:LexicalFunction.train"])
p("Results do not depend on the orthonormal basis",
  "Giving all vectors in another orthonormal basis (a rotation, a reflection, a reordering of the dimensions, the signs of SVD dimensions) changes no cosine, dot-product or Euclidean similarity and no neighbour list; WeightedAdditive and Dilation learn the same parameters and compose to the turned vectors; and for FullAdditive and LexicalFunction, where the argument and phrase spaces may even be turned independently, training with any built learner (least squares, ridge, cross-validated ridge, with or without intercept) succeeds in both bases and the vectors composed afterwards are the same vectors in the new basis.",
  "all well-formed spaces, orthogonal matrices of every size, training and test data, storage formats and learners the constructors build, with an ideal pseudo-inverse and least-squares routine", "a test compares two bases on one data set, and numerical noise hides whether the penalty treats the directions alike or includes the intercept; the claim needs every orthogonal matrix and every training set.", ["src/composes/utils/regression_learner.py:RidgeRegressionLearner.train", "src/composes/matrix/linalg.py:Linalg.ridge_regression", "src/composes/matrix/linalg.py:Linalg.lstsq_regression", "src/composes/composition/weighted_additive.py:WeightedAdditive.xxx", "src/composes/composition/dilation.py:Dilation._train", "src/composes/composition/full_additive.py:FullAdditive._train", "src/composes/composition/lexical_function.py:LexicalFunction.train", "src/composes/semantic_space/space.py:Space.get_sim", "src/composes/semantic_space/space.py:Space.get_neighbours"])
p("The two constituents are treated alike in training",
  "Exchanging the two constituents in every training triple, together with the two argument spaces, exchanges what is learned: WeightedAdditive learns the same two weights in the other order, and FullAdditive learns the same two matrices in the other order, so that composing the exchanged triples gives the same labels and the same vectors as before.",
  "all training and test data, argument spaces (of different widths for FullAdditive), phrase spaces and learners the constructors build, with an ideal pseudo-inverse and least-squares routine", "a test trains on one data set in two orders; a slip in splitting the learned matrix at the width of the first space shows only when the widths differ.", ["src/composes/composition/weighted_additive.py:WeightedAdditive.xxx", "src/composes/composition/weighted_additive.py:WeightedAdditive._train2", "src/composes/composition/full_additive.py:FullAdditive._train", "src/composes/composition/full_additive.py:FullAdditive._compose"])
p("What was never counted stays zero",
  "No weighting or normalisation (EPMI, PPMI, PLMI, PLOG, row and matrix normalisation) turns a zero cell into a non-zero one, so the number of non-zero cells never grows; EPMI and the normalisations keep every non-zero count of a non-negative matrix. A word without any counts has the zero vector after any sequence of scalings, feature selections and SVD reductions, and cosine 0 with every word; a peripheral word without counts has the zero vector whatever the transformations of the core space, NMF included, also if it is added later with add_rows, which leaves the vectors already there as they are.",
  "all matrices of both storage classes, all scalings, all sequences of transformations (for core words: without NMF and with SVD routines that return singular triples), all words", "a test looks at a few zero cells; a stray smoothing constant, a division 0/0 or a log 0 appears only in particular cells, rows or combinations of operations.", ["src/composes/transformation/scaling/epmi_weighting.py:EpmiWeighting.apply", "src/composes/transformation/scaling/plog_weighting.py:PlogWeighting.apply", "src/composes/transformation/scaling/row_normalization.py:RowNormalization.apply", "src/composes/transformation/scaling/normalization.py:Normalization.apply", "src/composes/semantic_space/peripheral_space.py:PeripheralSpace._project_core_operations", "src/composes/semantic_space/space.py:Space.apply"])
p("Words with the same counts have the same vector",
  "In a core space built by scalings, feature selections and SVD reductions, two words with the same counts have the same vector. A peripheral word has the vector its counts determine: its name, its position, the other words given with it and the storage class of the counts do not matter, nor whether it is given when the space is built or later with add_rows. If the first transformation is EPMI, PPMI or a row normalisation, this holds already for words whose counts are proportional, in the core and in every peripheral space on it: how frequent a word is does not matter, only what it occurs with.",
  "all raw spaces, sequences of transformations and words (for core words: without NMF and with SVD routines that return singular triples), all peripheral matrices and all positive factors", "a test compares two words; dependence on the position or on the other rows appears only for some matrices and some sequences of operations.", ["src/composes/semantic_space/space.py:Space.apply", "src/composes/semantic_space/peripheral_space.py:PeripheralSpace._project_core_operations", "src/composes/transformation/scaling/epmi_weighting.py:EpmiWeighting.apply", "src/composes/transformation/scaling/row_normalization.py:RowNormalization.apply", "src/composes/transformation/dim_reduction/svd.py:Svd.apply"])
p("Pooling counts adds vectors when no non-linear weighting is used",
  "If a core space was built by matrix normalisations, feature selections and SVD reductions only, vectors are linear in the counts: a word whose counts are a combination of the counts of two other words has the same combination of their vectors, in the core space and in every peripheral space on it.",
  "all raw spaces, all sequences of these transformations (for core words with SVD routines that return singular triples), all peripheral matrices, all coefficients", "linearity is a statement about all combinations of rows; a test checks single sums, and a row-dependent correction (such as a sign or a normalisation by row) may leave these unchanged.", ["src/composes/semantic_space/peripheral_space.py:PeripheralSpace._project_core_operations", "src/composes/transformation/scaling/normalization.py:Normalization.apply", "src/composes/transformation/feature_selection/top_feature_selection.py:TopFeatureSelection.apply", "src/composes/transformation/dim_reduction/svd.py:Svd.apply"])
p("The similarity measures describe one geometry",
  "For words of one or of several spaces of the same width: the distance 1/score - 1 behind the Euclidean similarity obeys the triangle inequality, and so does the angle arccos(score) behind the cosine (zero vectors included), so two words close to a third are close to each other. The dot products determine the other two measures: (1/euclid - 1)^2 = dot(a,a) + dot(b,b) - 2 dot(a,b), cos * sqrt(dot(a,a)) * sqrt(dot(b,b)) = dot(a,b), and dot(a,b)^2 is at most dot(a,a) * dot(b,b).",
  "all well-formed spaces of the same positive width, dense or sparse, and all triples of words in them", "the triangle inequality is about all triples of vectors, and the identities about all pairs; a test evaluates single values, which a wrong norm or a wrong treatment of zero vectors can still reproduce.", ["src/composes/similarity/cos.py:CosSimilarity", "src/composes/similarity/euclidean.py:EuclideanSimilarity", "src/composes/similarity/dot_prod.py:DotProdSimilarity", "src/composes/semantic_space/space.py:Space.get_sim"])
p("Stacking spaces: grouping, order, normalisation and composition",
  "Stacking three spaces works with one grouping exactly when it works with the other, and gives the same labels in the same order and the same vectors. Stacking in the other order works exactly when the first does and gives every word the same vector. PLOG weighting and row normalisation may be applied to the parts before stacking or to the stacked space. Composing with one stacked space works exactly when composing with the pair of its parts does and gives the same phrases with the same vectors, provided no first constituent is a word of the second part and vice versa.",
  "all non-empty well-formed spaces of either storage class, all composition models whose shapes fit, all lists of triples including unknown words", "the statements relate different sequences of calls over all spaces; a test fixes one pair of spaces, and mixed storage classes or shared labels appear only in some of them.", ["src/composes/semantic_space/space.py:Space.vstack", "src/composes/transformation/scaling/row_normalization.py:RowNormalization.apply", "src/composes/transformation/scaling/plog_weighting.py:PlogWeighting.apply", "src/composes/composition/composition_model.py:CompositionModel.compose"])
p("Words that do not occur in the training data do not matter",
  "Training a composition model depends on the argument and phrase spaces only through the vectors of the words that occur in the training triples. Replacing a space by another one of the same matrix class and width, in which every word of the data is missing or has the same vector, gives the same trained model, or the same exception \u2013 whatever other words the spaces contain and in whatever order. In particular training with a stacked space is training with its parts.",
  "all models, all training data, all pairs of spaces that look alike for the words of the data, all numerical back ends (including ones that raise)", "the words that do not occur in the data, their number, their vectors and their order range over all spaces; a test tries one extra word, and the one model for which the property fails needs fifteen", ["src/composes/composition/composition_model.py:CompositionModel.train", "src/composes/composition/weighted_additive.py:WeightedAdditive.xxx", "src/composes/composition/lexical_function.py:LexicalFunction.train", "src/composes/semantic_space/space.py:Space.get_rows"])
p("A space stored densely and the same space stored sparsely give the same results",
  "For two spaces that differ at most in the class of the matrix: every similarity and every neighbour list is the same; every chain of weightings, normalisations and feature selections raises the same exception or gives spaces that again differ at most in the class; composing works for one exactly when it works for the other and gives the same phrases with the same vectors; dilation, weighted additive, full additive and lexical function models learn the same parameters from any mixture of classes. to_dense and to_sparse give such a pair. The same is expected of Svd.",
  "all spaces, words, measures, chains of transformations, composition models, training data and mixtures of dense and sparse inputs", "dense and sparse matrices run different code (numpy and scipy); a test compares them on one matrix, and the sign rule of the decomposition differs only for factors with many zeros", ["src/composes/semantic_space/space.py:to_dense", "src/composes/semantic_space/space.py:to_sparse", "src/composes/matrix/dense_matrix.py:is_mostly_positive", "src/composes/matrix/sparse_matrix.py:is_mostly_positive", "src/composes/matrix/sparse_matrix.py:plog", "src/composes/matrix/linalg.py:_dense_svd"])
p("Turning predictions or classes around turns the AUC around",
  "For 0/1 gold values with both classes present: predictions in the opposite order, or exchanged classes, get the score 1 - auc; doing both gives auc again; the score is 1 exactly when no positive item scores lower than a negative one, and 0 exactly when every positive item scores lower than every negative one.",
  "all gold lists and predictions of equal length with both classes, and all strictly decreasing transformations", "the score is a running sum over the sorted items; a test has one list, and the claim fails only when a positive and a negative item are tied", ["src/composes/utils/scoring_utils.py:auc"])
p("Peripheral rows may be given densely or sparsely",
  "The rows of a peripheral space may be given as a dense or as a sparse matrix: building the space from them succeeds in both cases or in neither, with the same words, columns and values, and adding rows later with add_rows does not care about the class of the new rows either. (False of the code for add_rows: if the core space was not reduced, rows of the other class than the first ones always raise TypeError, although the same rows in the first class are accepted, and the new words are listed afterwards. True when all batches have one class, or when the core space was reduced, in which case any mixture gives the same space.)",
  "all core spaces obtained from a raw space by scalings, column selections and SVD reductions, all matrices of rows, labels, classes and sequences of batches", "A test builds one space in one class; the claim compares both classes for every core space, every matrix and every sequence of batches.", ["src/composes/semantic_space/peripheral_space.py:PeripheralSpace.add_rows", "src/composes/semantic_space/peripheral_space.py:PeripheralSpace.__init__", "src/composes/matrix/dense_matrix.py:vstack", "src/composes/matrix/sparse_matrix.py:vstack"])
p("build_core_space refuses operations it does not know",
  "build_core_space refuses an operation it does not know (a misspelt weighting, selection, reduction or normalisation) and a selection or reduction whose size is not a positive whole number. (False of the code for names: the run succeeds, only a warning is printed, and a file whose name carries the unknown operations holds the unchanged input space. True for sizes: such a run never succeeds, and it ends with ValueError if the operations before it succeed.)",
  "all option lists, names, sizes, input spaces and file systems", "A test tries some names; the claim is about every string that is not a documented operation.", ["src/pipelines/build_core_space.py:apply_weighting", "src/pipelines/build_core_space.py:apply_selection", "src/pipelines/build_core_space.py:apply_reduction", "src/pipelines/build_core_space.py:apply_normalization", "src/pipelines/build_core_space.py:build_spaces"])
p("Output file names tell runs apart",
  "Two runs of the scripts into the same output directory never overwrite each other's results unless they are runs of the same script with the same input name and the same options: each script writes only files with its own prefix, and within a script the name of the output determines the input name and the operations. (False as stated when input names contain dots: the result of weighting w on the input x and the unchanged input x.w have the same name, so a later run silently replaces an earlier, different result. True for dot-free input names, and for training and composition with all names.)",
  "all file systems, library behaviours, inputs, output directories, documented option lists, models, measures and pairs of successive runs", "a collision needs two particular runs with particular input names; no test of a single run sees it, and the absence of collisions ranges over all names and option lists", ["src/pipelines/build_core_space.py:build_spaces", "src/pipelines/build_core_space.py:print_space", "src/pipelines/build_peripheral_space.py:transform_raw_per_space", "src/pipelines/train_composition.py:train_model", "src/pipelines/apply_composition.py:apply_model", "src/pipelines/compute_similarities.py:compute_sim", "src/pipelines/compute_neighbours.py:compute_neighbours"])
p("Phrases can be composed from phrases",
  "A space of composed phrases can be used together with the space of the words to compose longer phrases, with the same model object, and the vector of the longer phrase is the model's formula applied to the vector of the shorter phrase and that of the word; for Multiplicative and WeightedAdditive(1, 1) the grouping of three words does not matter, for other weights exactly when alpha(1-alpha)x = beta(1-beta)z. (False for FullAdditive models built from two matrices: their composed spaces have no column labels, and combining them with labelled words raises ValueError. True for the other models, for lexical functions between vectors of equal length and for FullAdditive models whose stored column labels are those of the words.)",
  "all spaces, all models, all pairs of triple lists, all words", "needs two dependent calls and all spaces and models; unit tests compose once", ["src/composes/composition/composition_model.py:CompositionModel.compose", "src/composes/composition/composition_model.py:CompositionModel._build_id2column", "src/composes/composition/composition_model.py:CompositionModel.extract_arg_spaces", "src/composes/composition/full_additive.py:FullAdditive._build_id2column", "src/composes/composition/lexical_function.py:LexicalFunction.compose"])
p("Feature selection and peripheral words",
  "If TopFeatureSelection(k) is applied to a core space, a peripheral word keeps exactly the features that are best in the core space, whatever is best for the peripheral words: its vector on the reduced core is its vector on the core before restricted to those columns; words that could be given a peripheral space of the width of the core still can; two peripheral words never become less similar by Euclidean similarity; and if at most k columns of the core space are not zero everywhere (so that nothing changes in the core), no similarity of peripheral words changes either. (The last part is false of the code: a feature that only peripheral words have is lost, and two different words can become the same. True if the peripheral words are zero wherever the whole core space is.)",
  "all well-formed core spaces, numbers of features, criteria, peripheral matrices, words and measures", "a test selects features of a fixed core for fixed new words; the claim is about every core space and every batch of new words", ["src/composes/transformation/feature_selection/top_feature_selection.py:TopFeatureSelection", "src/composes/semantic_space/operation.py:FeatureSelectionOperation.project", "src/composes/semantic_space/peripheral_space.py:PeripheralSpace", "src/composes/similarity/euclidean.py:EuclideanSimilarity"])
p("Weightings that look at one word at a time",
  "After any sequence of PLOG weightings and row normalisations the vector of a word depends on its own counts only: in two spaces with whatever other words, stored densely or sparsely, words with the same counts get the same vector; the similarity of two words by any measure does not change when other words are added to the space or left out; and new words may be treated as peripheral words of any core space with these transformations or as a core space of their own, with the same matrix.",
  "all spaces, all sequences of PLOG weightings and row normalisations, all words and measures", "a test compares two fixed spaces; the claim is about every other content of the spaces and every sequence of these transformations", ["src/composes/transformation/scaling/plog_weighting.py:PlogWeighting", "src/composes/transformation/scaling/row_normalization.py:RowNormalization", "src/composes/semantic_space/space.py:Space.apply", "src/composes/semantic_space/peripheral_space.py:PeripheralSpace"])
p("A word known to the core space finds itself",
  "A word given to a peripheral space with the counts that some core word has (under whatever name, among whatever other words, densely or sparsely) has similarity exactly 1 to that core word across the two spaces, and get_neighbours(x, n, similarity, core) by Euclidean similarity, or by cosine if the vector is not zero, begins with score 1, has no score above 1, and contains the core word with score 1 unless the list is full of words with score 1 that come before it; always when n is at least the number of core words. This holds for every sequence of scalings, feature selections and SVD reductions of the core, and for any two spaces of one width in which the two words have the same vector.",
  "all raw spaces, all sequences of exact transformations, all peripheral matrices, words and n > 0", "a test looks up fixed words in a fixed core; the claim is about every core, every transformation sequence and every batch of words", ["src/composes/semantic_space/peripheral_space.py:PeripheralSpace", "src/composes/semantic_space/space.py:Space.get_neighbours", "src/composes/semantic_space/space.py:Space.get_sim"])
p("Features that no word has do not matter",
  "Adding columns in which every word has the count 0 to a space (or leaving such columns out) changes nothing: every sequence of EPMI, PPMI, PLMI, PLOG weightings and row or matrix normalisations gives the same numbers in the other columns and zeros in the new ones, and no similarity of two words and no neighbour list changes, by any of the four measures. In particular an unused column causes no division by zero.",
  "all spaces, any number of zero columns, all sequences of weightings and normalisations, all words, measures and n", "a test adds a column to a fixed space; the claim is about every space and every sequence of transformations", ["src/composes/transformation/scaling/epmi_weighting.py:EpmiWeighting", "src/composes/transformation/scaling/normalization.py:Normalization", "src/composes/semantic_space/space.py:Space.apply", "src/composes/semantic_space/space.py:Space.get_neighbours"])


if __name__ == "__main__":
    out = os.path.join(os.path.dirname(os.path.abspath(__file__)), "..", "properties.jsonl")
    with open(out, "w") as f:
        for x in P: f.write(json.dumps(x) + "\n")
    print(len(P))
