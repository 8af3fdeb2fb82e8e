import json
old=open('/verif/DESIGN.md').read()
method={
"C01":"`Space.__init__`, `list2dict`, `assert_dict_match_list`, `assert_shape_consistent`; exact acceptance criterion (iff) by pigeonhole on the dictionary",
"C02":"world of spaces with shared dictionaries (`Model/World.lean`); invariant, induction over the history of calls",
"C03":"`get_row`, `get_rows`; from well-formedness and Python list indexing",
"C04":"`Space.vstack`; characterisation of success, lookup theorem",
"C05":"`Space.apply` with every transformation; case analysis",
"C06":"constructors, `resolve_type_conflict`, `to_compatible_matrix_types`; direct",
"C07":"`set_cooccurrence_matrix` with the argument order of the code; refutation, exact acceptance condition",
"C08":"`get_sim`, `get_sims`; direct",
"C09":"`get_neighbours`; stable descending merge sort, top-n",
"C10":"`get_neighbours` against `get_sim`; via C11",
"C11":"batched and pairwise code paths of the four measures; algebra on sums",
"C12":"`sorted_permutation`; sortedness, permutation, stability by induction",
"C13":"cosine over the reals; Cauchy-Schwarz",
"C14":"Euclidean over the reals; algebra",
"C15":"Lin; refutation for components negative in both vectors",
"C16":"EPMI/PPMI/PLMI; algebra, sign lemmas",
"C17":"plog, dense and sparse, weighting and in place",
"C18":"row normalisation; sums and square roots",
"C19":"normalisation; sums and square roots",
"C20":"`TopFeatureSelection.apply`; from C12",
"C21":"truncation and sign logic of `Linalg.svd`, library SVD specified by its equations; matrix algebra",
"C22":"`_nmf_nlssubprob`, `nmf` with arbitrary closeness tests and time limit; loop invariants",
"C23":"the same; quadratic expansion of the objective, descent invariant through both loops",
"C24":"operations and `PeripheralSpace`; induction over the operation list",
"C25":"the same; row-wise commutation of every projection",
"C26":"the same",
"C27":"operation state machines; induction over histories of calls",
"C28":"`add_rows` with the in-place dictionary update; refutation, exact damage",
"C29":"heap of dictionaries; frame property",
"C30":"CSR arrays; refinement to `Mat`",
"C31":"CSR arrays; refinement, each method",
"C32":"CSR arrays; positions of entries under reshape",
"C33":"int32 words; arithmetic bounds",
"C34":"counting; refutation for dense",
"C35":"`allclose` formulas; refutation",
"C36":"matrix methods; direct, all type/shape combinations",
"C37":"matrix methods; direct",
"C38":"`compose` for every model; list induction (mask, filter)",
"C39":"`valid_data_to_lists`; induction, refutation on the empty list",
"C40":"weighted additive; entry formulas", "C41":"dilation; entry formulas", "C42":"multiplicative; entry formulas", "C43":"full additive; entry formulas",
"C44":"full additive training; stacking algebra and C52",
"C45":"lexical function; reshape + product, entry formula",
"C46":"lexical function training; partitions, per-function regression, round trip with C45",
"C47":"`get_partitions`; induction on the sorted key list",
"C48":"chunked accumulation of normal equations; loop invariant, refutation",
"C49":"dilation training; optimality of a quotient (quadratic)",
"C50":"state machine of a model object; refutation",
"C51":"ridge; normal equations imply optimality", "C52":"least squares through the library routine / pinv specification", "C53":"first argmin over a list", "C54":"constructor state machine",
"C55":"token lists; fold invariant", "C56":"sum over matching records", "C57":"first record wins; fold invariant",
"C58":"writer and reader composed, character by character (tokenizer, labels); number format by the round-trip law of `repr`",
"C59":"the same with `%f`; rounding bound, refutation",
"C60":"writer over CSR arrays", "C61":"`export` dispatch; refutation", "C62":"`create_parent_directories`, `save`, `export` on the file-system model; refutation",
"C63":"`Space.build` argument rules",
"C64":"`get_split_indices` for an arbitrary permutation; slicing arithmetic",
"C65":"`auc` loops; pair counting, refutation on ties",
"C66":"dispatch",
"C67":"`build_core_space`: enumeration of option combinations, distinct file names, file-system frame",
"C68":"transcribed `getopt` and config lookups; last given value wins",
"C69":"`train_composition` main; refutation (leaked comprehension variable)",
"C70":"getopt tables; refutation", "C71":"`compute_similarities`; line induction, file content",
"C72":"operations on matrix-valued elements; refutation", "C73":"`add_rows` histories; refutation for negative positions",
"C74":"getopt errors; refutation for every script", "C75":"readers; line induction",
"C76":"`train_composition` end to end on the file-system model", "C77":"option handling; refutation", "C78":"model table; refutation",
"C79":"`apply_composition` end to end", "C80":"two scripts chained through the file system (pickle round trip as hypothesis)",
"C81":"`build_peripheral_space`, one file and directory mode", "C82":"`compute_neighbours` end to end", "C83":"`evaluate_similarities` end to end",
"C84":"every script's required options", "C85":"`config_logging`; refutation", "C86":"decimal rendering of parameters; rounding bound",
"C87":"help option; refutation", "C88":"column numbers; refutation",
"C89":"two scripts chained: C24 lifted through files",
"C90":"small-step disk model (`Model/Crash.lean`): set of all intermediate disks of every script; safety invariant by induction over the script",
"C91":"the same for one `save`; refutation", "C92":"rerun from any intermediate disk: bisimulation `Near` between the disks of the two runs",
"C93":"matrix heap (`Model/Heap.lean`): programs extend the heap (frame) and refine the value model",
"C94":"matrix heap: buffers of results are new; separation preserved by in-place calls", "C95":"matrix heap: separation invariant over all histories; refutation",
"C96":"`nndsvd_init` and `random_init` (`Model/NmfInit.lean`); sign argument on singular triples of a non-negative matrix",
"C97":"`Space.build` on the file-system model; the readers' theorems (C56, C57) lifted through `build`",
"C99":"the SVD back end is specified by `IsSvd` / `TopTriples` (textbook); the Eckart-Young theorem is proved in Lemmas/EckartYoung from Mathlib's inner product spaces, then applied to the matrices the model of `Svd.apply` returns",
"C100":"Bessel's inequality for the transformation matrix, lifted through `Space.apply` and `get_sim`; equality from the inner products of C21",
"C101":"cosine is invariant under positive scaling of each row; `TopNeighbours` determines the list uniquely",
"C102":"the formulas of C16, C18, C19 are homogeneous of degree 0 (PLMI: 1)",
"C103":"row-wise form of every scaling and of column selection (`RowMap`), statistics invariant under permutation of rows; induction over the sequence",
"C104":"Cauchy-Schwarz plus the specification of neighbour lists (C09)",
"C105":"training error minimality (C48-C53) with minimum 0, then the composition formulas (C44-C47)",
"C106":"every statistic is invariant under permutation of the columns; induction over the sequence of scalings",
"C107":"induction over the list of matrices",
"C108":"file-system model of the batch drivers; frame",
"C109":"constructors over arbitrary keyword dictionaries (Model/Ctor); case analysis",
"C110":"constructors over arbitrary keyword dictionaries; refuted by two calls, true part by case analysis",
"C111":"constructor followed by train; refuted by the defaults in the code, true part by unfolding",
"C112":"file-system model; composition of C59's round trip with the stability of '%f' on its own output",
"C113":"composition of the projection lemmas (C24) with the contraction property of truncated SVD (C100)",
"C114":"the training formulas are sums over the samples, invariant under List.Perm; ridge regression is a function of XᵀX and XᵀY; the shortest least-squares solution is unique (parallelogram identity)",
"C115":"corollaries of the full specification of compose (C38, C45): knownTriples distributes over append, phrases are distinct",
"C116":"corollary of C38 with commutativity of multiplication and addition",
"C117":"composition of C04 (words keep their vectors) with the row-wise formula of get_sim (C08)",
"C118":"composition of C71 (lines written) with C83 (lines evaluated): splitting an output line gives the input fields plus the printed number, which the number parser reads back",
"C119":"normal equations of the ridge problem; monotonicity of penalised minimisers in the parameter; parameter 0 is IsLstsq through the pseudo-inverse hypothesis",
"C120":"uniqueness of TopNeighbours and its closure under take (Invariance)",
"C121":"symmetry of the measures on vectors (simVal_symm) through the get_sim formula (C08)",
"C122":"C19 for the total after normalisation; uniqueness of the best-columns specification and its closure under take/range",
"C123":"composed rows are linear (or entrywise) in the rows of the argument space, the projection is multiplication by the stored matrix (or the selection of the stored columns); exchange of finite sums",
"C124":"processes as trees of system calls (Model/Conc) that take turns; simulation of every interleaving by the solo runs, invariant by induction on the schedule (Lemmas/ConcCore)",
"C125":"the scripts as such processes (Model/Conc); alone they do what the big-step model says (Lemmas/ConcSolo); what they look at and change is bounded by their settings (Lemmas/ConcFoot); then C124",
"C126":"C124 for existing directories; refutation by a schedule of `exists`/`makedirs` calls, for `io_utils.save` and for two runs of build_core_space",
"C127":"invariant on the state of the save over every schedule of readers; refutation: a reader between `open(.., 'w')` and the first write",
"C128":"case analysis of `load`; for the scripts the runs with every intermediate disk state (`Model/Crash`) see no other disk than the initial one",
"C129":"case analysis of the index normalisation, extensionality of matrices",
"C130":"the readers are total: each step succeeds iff a predicate on the text holds; case analysis over the stages of `Space.build`",
"C131":"composition of C44, C46, C48, C51-C53 under `Env.Ideal` (Spec/Backend); `Lemmas/Ideal` proves that such a back end exists (singular value decomposition and pseudo-inverse from the spectral theorem)",
"C132":"the line loops of the three scripts, `floatOpt`, `floatList` and `pyInt`; induction over the lines before the first bad one, case analysis on what is wrong with it",
"C133":"`trainModel`, `mainTrain` and `applyModel` with an ideal `Env`; totality of every training and composition step (C131, C49, C79) plus determinism of what was read, and the frame of `save` for the second run",
"C134":"`DimRedT.apply`, `Space.applyAll`, `buildSpaces` and `buildPeriph` with an ideal `Env`; Bessel's inequality shows that a matrix stretching a unit vector beyond 10⁻¹² has a singular value beyond it; totality of each kind of transformation, then C67_succeeds, C24 and C81",
"C135":"`Model/ModelState`: state-passing versions of every train method (the assignments in the order of the code), proved to have the outcomes and results of `Composer.train` / `LexFun.train`; inspection of every exit, induction over the calls of a session for the history; the two refutations compute what composes after the failing call",
"C136":"the list of effects (truncation of a node, one character at an offset) of a program that meets an unchanged disk at every node but the shared ones (`Calm`); invariant of all schedules: each node is reached from its old content by an interleaving of effects, and while all writers of a node write the same text every prefix of what is on disk agrees with it, so that the last effect completes it; the seven scripts are shown to be calm",
"C137":"refutation: schedules of two saves that leave a mixture and a hole; partial: the same invariant for a save whose steps are consecutive",
"C138":"the sums over the training pairs scale by k, and pseudo-inverses and least-squares problems with them; ridge regression with a k times larger parameter; refutations for dropped partial chunks and the sample threshold",
"C139":"the reader of ConfigParser transcribed line by line (Model/Config); invariant between its state and what the lines read so far say (Spec/Config), by induction over the lines; with the option tables of C68 for the command lines",
"C140":"the coefficients of the textbook (Spec/Correlation) as hypothesis about scipy.stats; Cauchy-Schwarz over lists with its equality case, invariance of means, co-deviations and ranks under permutations and strictly monotone maps; with C83 for the script",
"C141":"from the formulas of C16: expected counts have the same total as the counts (exchange of sums), so no cell above expectation means all cells at expectation; log x >= 1 - 1/x for the mutual information",
"C142":"both reductions truncate one decomposition (hypothesis SvdOnce on the library), so they differ by a common sign; sums of squares over fewer columns are smaller",
"C143":"row normalisation gives unit rows (C18); cosine, dot and distance identities on the rows; neighbour lists are determined by the order of the scores",
"C144":"sums over the selected columns are sums over a subset of the columns (C20); exchange argument for optimality",
"C145":"from the composed vectors of C38/C40-C45 by algebra on sums",
"C146":"composition of rescaled rows is a rescaled composition; cosine and neighbour lists are invariant under positive row scaling (C101)",
"C147":"pseudo-inverse of the Gram matrix times the transpose satisfies the Penrose conditions of the design matrix; the shortest least-squares solution is unique; congruence through the training loops",
"C148":"C82 and C71 say what the two files contain; both scores are the value of get_sim on the loaded spaces (C10), so the printed texts are equal.",
"C149":"Choice.Result composed along SplitInto from C67_every_combination of both runs; the meaning of an option is unique (wmeans_unique, \u2026), so without NMF the two runs store the same pickle as one run",
"C150":"C58/C59 round trips lifted through the job list of the run (C67_every_combination, HoldsSpace.exported); the refutation follows a stale .cols file through the run (FilesKept: no script step removes a file)",
"C151":"ridge_regression computed with an arbitrary matrix in place of the pseudo-inverse (ridgeRegression_tmp), instantiated with the identity that the except branch uses; other exceptions through ridgeRegression_eq; the learners through C53",
"C152":"Learner by learner: the unique minimum-norm least-squares solution and the pseudo-inverse formula are linear in the right-hand side; the cross-validation errors are all multiplied by |k|, so the first minimum is at the same grid index; then the two trainings are run through C44/C46 side by side.",
"C153":"Dot products of turned vectors are those of the vectors. For the learners: the design matrix, the regularised Gram matrix, its pseudo-inverse (by uniqueness), the trace of the hat matrix and the residual norm are followed through the change of basis; the unique minimum-norm least-squares solution is carried along; cross validation sees equal scores.",
"C154":"The exchange of the two constituents is an orthogonal change of basis of the joined vectors, so the learner lemma of C153 applies; for WeightedAdditive the 2 by 2 Gram matrix is conjugated by the exchange matrix and its pseudo-inverse with it.",
"C155":"every operation is a map on rows (Lemmas/RowMap); each fixes zero cells respectively the zero row; for the core via the reproduction lemma of C24",
"C156":"operations as row maps: equal rows give equal rows; EPMI, PPMI and row normalisation as first operation are invariant under scaling of the row",
"C157":"matrix normalisation, column selection and multiplication with the SVD matrix are linear row maps; composition of linear maps",
"C158":"the vectors are embedded in Mathlib's EuclideanSpace; norm and angle triangle inequalities, Cauchy-Schwarz",
"C159":"from the description of stacked spaces (C04), the row-wise form of PLOG and row normalisation and the description of composed spaces (C38)",
"C160":"LookAlike P s t: equal get_rows on words of P; the outcome of training is the same value or exception; the weighted model is refuted with two phrase spaces of 2 and 15 rows",
"C161":"twins (two spaces equal but for the matrix class); each scaling and feature selection is computed for both classes and compared, similarity and neighbours from C08/C09, composition from C38, training from the closed forms of C131/C147, GCV by induction over the grid; the SVD counterexample computed by hand",
"C162":"double sums over (negative, positive) pairs: C65's closed form, swapping the sums, and w(n,p) + w(p,n) = 1 + [n = p]",
"C163":"the row-wise description of projections (whether rows are accepted does not depend on the class); induction over the transformations for the class of the projected rows, over the batches for add_rows",
"C164":"the option grammar of the specification against the parsing of the names, the jobs of a run for the sizes, a direct run for the unknown names",
"C165":"The last path component of every output name is cut at its dots (names of documented operations, models, classes, measures and extensions contain none), so equal files give equal inputs and options; combined with the 'no other file is touched' theorems of each script. The refutation computes the common name of two different results and follows both runs.",
"C166":"Two calls of compose in a row: the first result is well formed with the column labels of the words, so the second call succeeds (C38) and its vectors unfold to the nested formula; grouping by algebra. The refutation follows the missing column labels of FullAdditive(A, B) into the check of the second call.",
"C167":"The operation appended to the core selects columns of whatever the earlier operations made of the new rows; sums over the kept columns are sub-sums. The refutation computes both similarities for a feature only a peripheral word has.",
"C168":"PLOG and row normalisation remember nothing about the space, so applying them is projecting: both results are the same row map applied to the row of the word.",
"C169":"C24's reproduction lemma gives both words the same vector; similarity 1 and the order of the list follow from the specification of get_neighbours as in C104.",
"C170":"All row, column and matrix sums in the specifications of the weightings (C16-C19) and in the four measures agree for a matrix and the same matrix with further zero columns; induction over the sequence.",
"C98":"`PeripheralSpace.build`; refutation: the column labels of the files are dropped and the core's are used by position",
}
props=[json.loads(l) for l in open('/verif/properties.jsonl')]
man={c['property']:c for c in json.load(open('/verif/MANIFEST.json'))['claims']}
import re,glob
where={}
for f in sorted(glob.glob('/verif/lean/Verif/Props/*.lean')):
    for m in re.finditer(r'^theorem (C\d\d+)_',open(f).read(),re.M):
        where.setdefault(m.group(1),set()).add(f.split('/')[-1][:-5])
rows=[]
for p in props:
    i=p['id']
    st=man[i]['status']
    if st=='partial': st='partial (the full statement is false of the code)'
    rows.append("| %s | %s | %s | %s | %s |"%(i,p['title'],method.get(i,''),', '.join(sorted(where.get(i,[]))),st))
head=open('/verif/tools/design_head.md').read()
open('/verif/DESIGN.md','w').write(head+"\n| id | property | model and proof | Props module | status |\n|----|----|----|----|----|\n"+"\n".join(rows)+"\n")
