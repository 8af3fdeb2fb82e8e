NOT_APPLICABLE = {}
NOTES = {
    "C160": "False of WeightedAdditive: C160_weighted_refuted gives two phrase spaces that look alike for every word of the training data (one has fifteen rows, the other two) and lead to different weights, because the chunk size is computed from the number of rows of the phrase space and the last incomplete chunk is dropped. Proved for every model with that one exception excluded (C160_train_partial: for WeightedAdditive the numbers of phrases must agree up to the multiple of 15), for LexicalFunction (C160_lexical_partial) and for stacked spaces (C160_stacked_partial).",
 "C06": "dense/sparse conversions, resolve_type_conflict, to_compatible_matrix_types",
 "C34": "false of the dense implementation (C34_dense_refuted: it compares with half of ALL cells); true for sparse without stored zeros, dense True answers are right, dense exact when no zero cell",
 "C35": "false (C35_refuted): numpy allclose is asymmetric and the sparse test has no relative tolerance; proved: reflexive, sparse symmetric, sparse True implies dense True", 
 "C39": "false on an empty list (C39_refuted: UnboundLocalError instead of ValueError); proved for non-empty data",
 "C48": "false (C48_refuted: the trailing partial chunk of samples is dropped); proved: optimal over the samples in whole chunks, hence over all when the chunk size divides their number",
 "C114": "false for WeightedAdditive (C114_weighted_refuted: with a phrase space of 15 or more rows the trailing partial chunk is dropped, so the order decides which triples count); proved: Dilation and ridge learners always, WeightedAdditive when the chunk size divides the number of usable triples, least squares for sparse spaces always and for dense ones when numpy's lstsq returns the shortest solution as documented",
 "C50": "false (C50_refuted: column labels are cached by the first compose call); proved: everything but the column labels is history-independent",
 "C59": "false as stated (C59_refuted: %f keeps six decimals only); proved: same labels, every value within 1e-6 and equal to float('%f' % x)",
 "C61": "false (C61_refuted: without a format kwarg no matrix file is written); proved: the label files, and the matrix file when format='dm' is given",
 "C62": "false for a bare file name (C62_refuted: os.makedirs('') raises OSError); proved for every path with a directory part",
 "C65": "false on ties (C65_refuted: a tie counts one, not one half); proved: exact value, area under the curve without ties, range, order and monotone invariance, one-class data, invalid gold",
 "C68": "false for four documented entries (C68_refuted_crossvalidation: the default of --crossvalidation is False, not the documented True; C68_refuted_sim_measure: compute_similarities reads the key sim_measures, not the documented sim_measure; C68_refuted_log_default: compute_similarities and evaluate_similarities have no default log file; C68_refuted_lambda_range: cross validation searches linspace(0,5,11), not the documented linspace(0,0.5,10)); proved for every other documented option of all seven scripts",
 "C70": "false (C70_refuted: getopt declares sim_measures=, the handler tests --sim_measure, so the long option always exits 1); proved for the short option",
 "C74": "false (C74_refuted, C74_unknown_option_refuted: every getopt error prints the usage text and exits 0); proved: an option getopt accepts but main does not handle exits 1 and writes nothing",
 "C02": "false (C02_refuted: a peripheral space built on another space's row dictionary object and then grown leaves the other space inconsistent); proved for every finite history of calls in which add_rows succeeds and is made on spaces with an unshared dictionary object",
 "C07": "false (C07_refuted: the row and column label structures are passed in the wrong order, so a 2x3 space refuses its own matrix); proved: exactly which matrices are accepted, and that an accepted one is used",
 "C15": "false (C15_refuted: the sign test is on the product, so components negative in both vectors count); proved when no component is negative in both vectors",
 "C27": "false for feature selection (AttributeError) and for the scalings without statistics (C27_*_refuted); proved for the others over every history of calls",
 "C28": "false (C28_refuted: for every peripheral space a failing add_rows leaves the new labels in the dictionary); proved: the old words keep their vectors; a first duplicate label changes nothing",
 "C29": "false for a shared dictionary object (C29_refuted, in every world); proved for objects that do not hold the same dictionary object",
 "C69": "false with --lambda_range and no cross validation (C69_refuted: the comprehension variable overwrites lambda with a string); proved without --lambda_range",
 "C72": "false (C72_refuted: TypeError from formatting the message instead of IllegalOperationError); proved: the call never succeeds, and raises exactly TypeError whenever the numerical reduction itself would have succeeded",
 "C73": "false for negative positions (C73_refuted); proved for dictionaries with non-negative positions over any number of add_rows calls",
 "C77": "false without -r (C77_refuted: the default learner always has an intercept); proved when -r is given",
 "C78": "false (C78_refuted: the documented names are rejected); proved: exactly which names are accepted and which class each gives",
 "C85": "false for a bare file name (C85_refuted: every script raises OSError before doing anything); proved for names with a directory part; the logged text is not modelled",
 "C87": "false for the two scripts that open the configuration file before looking at the options (C87_refuted: -h nofile raises IOError); proved in all other situations",
 "C88": "false for column 0 (C88_refuted: it denotes the last column); proved for column numbers from 1",
 "C91": "false (C91_refuted: open(...,'w') truncates first, so during every successful save there is a moment at which the file is empty); proved: other files are never touched, the file has its old content or a prefix of the new one, and the new one at the end",
 "C94": "false (C94_refuted: Normalization with total 0 returns its argument itself); proved for every other call that returns a matrix, and for conversions to the other class, over every history and every sequence of in-place calls",
 "C95": "false (C95_refuted: DenseMatrix(x) keeps the array of x, and plog() writes into it); proved: the receiver always gets its documented value, and no other matrix changes in histories that give every array to a constructor at most once and never build a matrix from one of the same class",
 "C98": "false (C98_refuted: the labels in the cols file are dropped, so a cols file in another order than the core's columns puts the counts under the wrong dimensions); proved: what it does by position, and the claim when the cols file lists the core's columns in order",
 "C110": "false (C110_lexical_refuted: LexicalFunction(learner=5) is accepted; C110_full_additive_refuted: FullAdditive(A=m) without B silently ignores A); proved: which arguments are stored and which are refused for each of the two classes",
 "C111": "false (C111_refuted: the class attributes are other values than the property documentation); proved: the defaults that the code has",
 "C126": "false when the directory does not exist yet (C126_refuted_new_directory, C126_refuted_scripts: two processes both find it missing, one creates it, the other dies with OSError from os.makedirs); proved for any number of processes and every schedule when the directories exist",
 "C127": "false (C127_refuted_half_written: open(.., 'w') truncates, a reader in between loads an empty file); proved: in every schedule the reader gets the old content or an initial part of the new one, nothing else changes, and the content is the new one once the writer has ended",
 "C135": "false of LexicalFunction (C135_lexical_refuted: train assigns the intercept flag first, so a failing training of a model made from a function space without intercept disables it) and of compose (C135_columns_refuted: a failing compose stores its column labels); proved: every failing training of WeightedAdditive, Dilation and Multiplicative and, with a correct library, FullAdditive leaves the model unchanged, LexicalFunction changes the flag only, compose never changes parameters, and over any history the parameters are those of the successful trainings",
 "C137": "false of the code (C137_refuted_mixture, C137_refuted_hole: save truncates and then writes, without a lock or rename, so the file may hold a mixture of the contents, even with NUL characters); proved: a save that starts when the others are anywhere in their work and runs without interruption leaves exactly its content (C137_last_partial); same contents: C136",
 "C138": "false of the code: WeightedAdditive looks at whole chunks only, so one triple is ignored and two equal ones are not when the phrase space has 15 rows (C138_weighted_refuted), and LexicalFunction needs MIN_SAMPLES samples per word (C138_lexical_refuted); proved: Dilation always, WeightedAdditive when the chunk size divides the number of usable triples, FullAdditive and LexicalFunction with the least-squares learner (the latter when no further word reaches the threshold), and ridge regression with the parameter multiplied by k",
    "C150": "False of the code: a .cols file that an earlier run left next to the export of a space without column labels is neither removed nor overwritten, and the scripts read it as part of the space (C150_stale_labels_refuted). True part: without such a file the dense export is read back exactly (C150_dm_partial), the sparse one with the same labels and values up to 1e-6, since six decimals are written (C150_sm_partial); labels must contain no white space and the space must not be empty.",
    "C161": "False of the code for Svd: the dense code negates both factors unless more than half of ALL cells of u are positive, the sparse code unless more than half of the STORED cells are (C161_svd_refuted: diag(3, 2) gets vectors of opposite signs). True part, proved in full: conversions, similarities, neighbours, every chain of scalings and feature selections, composition, and training of dilation, weighted additive, full additive and lexical function models with every learner, in every mixture of classes.",
    "C162": "False of the code when a positive and a negative item have the same score: such a pair counts 1 in both directions (C162_refuted: the area, the area of the reversed predictions and the area with exchanged classes are all 1). True part: the two areas always add up to 1 plus the fraction of tied pairs, so the claim holds exactly without ties; both changes together, and the characterisation of 1 and 0, hold in full.",
    "C163": "False of the code for add_rows: C163_other_class_refuted proves that without a dimensionality reduction rows of the other class always raise TypeError after the labels have been added. C163_new (construction) holds in full; C163_same_class_partial and C163_reduced_partial are the true parts for add_rows.",
    "C164": "False of the code: C164_refuted proves that a run with any names outside the documented ones succeeds and stores the unchanged input under a name that carries them. True part: senseless sizes (C164_size_partial, C164_size_error_partial).",
    "C165": "The statement for all names is false of the code (C165_refuted: `x` with weighting w and `x.w` without operations share a file name; the later run replaces the earlier result). Proved: each script writes only files of its own kind (C165_kind_*), training and composition for all names, and core spaces, peripheral spaces, similarities and neighbours for input names without dots (_partial).",
    "C166": "False of the code for FullAdditive(A, B) (C166_refuted: its composed spaces carry no column labels, so composing them with labelled words raises ValueError). Proved for every model that keeps the column labels (C166_left_partial, C166_right_partial), lexical functions (C166_lexical) and the grouping of three words (C166_grouping, C166_grouping_weights).",
    "C167": "The last part is false of the code (C167_refuted: one feature of the core is in use, selecting one feature changes nothing there, but merges two peripheral words that differ in a feature unknown to the core). Proved in full: which features are kept (C167_columns), that the words can still be projected (C167_builds), Euclidean similarity (C167_never_apart). True part of the last claim: peripheral words that are zero wherever the core is (C167_enough_features_partial).",
}
