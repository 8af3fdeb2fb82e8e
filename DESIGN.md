# Formal model of dimazest/dissect (DISSECT) in Lean 4

First written before the proofs and kept current (the table of section 6 is generated by `tools/gen_design.py`).
`/repo` is Python 2 with numpy/scipy; it is read as text only.

## 1. Layout

* `lean/Verif/Model/*.lean` - shallow, total, function-by-function models. Every definition cites the file and lines it
  models and states any simplification. Exceptions are values (`Except PyErr α`); a method that mutates its receiver
  returns the new receiver together with the outcome, so a state change made before a `raise` stays visible.
* `lean/Verif/Spec/*.lean` - small independent specifications (what the English property says).
* `lean/Verif/Lemmas/*.lean` - helper lemmas.
* `lean/Verif/Props/*.lean` - the theorems of property Cxx, named `Cxx_...`, with `example`s showing that a concrete
  non-trivial case meets the hypotheses. A property the code violates has a theorem `Cxx_..._refuted` (a concrete
  counterexample, or a refutation for all inputs), and what remains true is proved with the suffix `_partial`; the doc comment of
  each `_partial` theorem says what is missing.
* `lean/Verif/Examples/*.lean` - the theorems applied, by name, to concrete spaces and matrices (further non-vacuity checks).
* `MANIFEST.json` (status and theorem names), `AXIOMS.md` (axioms of every manifest theorem), `seeded/` (wrong programs
  tried against the theorems), `tools/` (generators of the files above; not part of the proof).

## 2. Trusted base

* Lean 4.33 kernel, and the Mathlib definitions that occur in statements (ℝ, ℤ, ℚ, lists, finite sums, `Real.sqrt`, `Real.log`, ...).
* Axioms: every theorem depends on a subset of `propext`, `Classical.choice`, `Quot.sound`. `AXIOMS.md` lists them theorem by
  theorem. No axioms of our own; no compiled evaluation.
* The hand translation Python -> Lean (checked by reading only), including the semantics of Python 2, numpy, scipy,
  `getopt`, `ConfigParser` and `os` quoted in the comments.
* Hypotheses that stand for code outside the repository. They are visible in the theorem statements:
  * `IsSvd`, `SvdCallOk`, `IsPinv`, `IsLstsq` (Spec/Svd, Spec/Regression): the textbook specification of `np.linalg.svd`/`sparsesvd`,
    `np.linalg.pinv`, `np.linalg.lstsq` for the concrete call;
  * `Env.Ideal` (Spec/Backend): all of these for every input at once. `idealEnv_ideal` (Lemmas/Ideal) proves that a back end with this property exists, so
    the hypotheses about back ends are jointly satisfiable;
  * `NumIO.Laws` (Spec/Io): how Python prints and parses numbers (`float(repr x) = x`, `'%f'` within 5e-7 of the number, no white space
    in a printed number);
  * `undump (dump x) = x` for pickle; a listing of a directory is a permutation of its entries.

## 3. What a model value is

* **Numbers.** Entries are elements of an arbitrary type where only movement of entries matters, of an arbitrary (ordered) field
  where only arithmetic matters, and of `ℝ` where `sqrt`/`log` occur. Rounding, NaN and infinities are not modelled, except where a property is
  about number formatting, and for int32 wrap-around in `SparseMatrix.reshape`.
* **Matrices.** `Mat K` = shape and entry function that is 0 out of bounds (so `=` is the natural equality). A repository matrix is `TMat K` =
  class tag (`dense`/`sparse`) + `Mat K`. The CSR arrays are modelled in `Model/Csr.lean`, with theorems that the methods of `SparseMatrix`
  touching them compute the same `Mat` as the dense counterparts; object identity, shared arrays and in-place changes are
  modelled in `Model/Heap.lean`, with theorems that the programs there compute what the value model says. Together these justify using
  `TMat` elsewhere.
* **Dictionaries** are association lists with distinct keys in insertion order; values are Python ints, negative list indices behave as in Python.
  Sharing of dictionary objects between spaces: `Model/World.lean`.
* **Text** is a list of characters; tokenizing, stripping, splitting and path functions are transcribed.
* **Numerical back ends**, random draws, `time()`, `random.shuffle` and `np.allclose` inside NMF are parameters (`Env`, `Chance`).
  Every numerical routine (`np.linalg.svd`, `sparsesvd`, `np.linalg.pinv`, `np.linalg.lstsq`) may raise any exception (e.g. `LinAlgError`: no convergence); theorems that need
  an answer say so, by `Env.Ideal` or a hypothesis on that call.
* **Element types** (`dtype`) are not modelled: every division in the code is made between floats (`float(...)`, `astype(double)`, `np.sqrt`), so an integer matrix behaves like
  the matrix of the same reals, except for overflow.
* **Labels** are hashable values compared by `==`; a tuple as a row label makes the *message* of `get_row`'s KeyError (`"%s" % (word)`) fail instead.

## 4. Modelled code

All of `src/composes` and `src/pipelines` except the list of section 5:
matrix classes and `linalg.py`; spaces, peripheral spaces and operations; scalings, feature selection, SVD, NMF (all three initialisations); similarities;
composition models and regression learners; readers, writers, `Space.build`, `Space.export`, `save`/`load`; cross validation and scoring;
the seven pipeline scripts from `sys.argv` (getopt, configuration file) to the files on disk, also for interrupted runs.

Simplifications that are not visible in a statement:
* file system: no permissions, links or `..`; a `.gz` file is its uncompressed content; opening `file/` for reading is accepted;
* interrupted runs (`Model/Crash.lean`): creating a directory and creating/truncating a file are single steps, text reaches the disk as a prefix of what is written,
  files reach the disk in program order; if both producing the text and opening the file would fail the model may report the other of the two errors;
  content of log files is not modelled;
* `chunk_size = int(rows * 0.2 / 3.0) + 1` is computed exactly as `rows / 15 + 1` (checked against floating point for all rows below 3,000,000);
* `eval` of option strings (`train_composition.py`) is an abstract parser; pickle is an abstract injective encoding; what `ConfigParser` makes of a
  file is an arbitrary function in the theorems about scripts; its line format is modelled in `Model/Config.lean` (C139) without
  `%(name)s` interpolation and without the `__name__` entry of sections;
* `build_peripheral_space` in directory mode: theorems assume that the output directory differs from the input directory;
* matrix heap: numpy matrices are stored row by row; `numpy.ndarray` arguments (always copied) are left out.

## 5. Not modelled

Printing to the terminal (except `evaluate_similarities`, whose only effect it is) and text of log files, `warnings.warn`, timing and memory
usage (`mem_utils`), pickle byte format, gzip, dtype promotion, `__str__`, help texts, the numerics of `scipy.stats` (Pearson and Spearman are parameters; C140 assumes that they are the textbook coefficients, `StatsLib.Correct` in `Spec/Correlation.lean`),
raw numpy/scipy arguments of `to_compatible_matrix_types`, NaN/inf, rounding, `src/examples`, `src/unitest`.
The summaries that `log_utils` prints could raise only for a sparse matrix without cells (`%d` of nan), which no file can produce.

## 6. Properties: what is modelled, how it is proved

Nothing had to be declared `not_applicable`. "False of the code" rows carry a machine-checked refutation.

| id | property | model and proof | Props module | status |
|----|----|----|----|----|
| C01 | Space construction accepts exactly the consistent inputs | `Space.__init__`, `list2dict`, `assert_dict_match_list`, `assert_shape_consistent`; exact acceptance criterion (iff) by pigeonhole on the dictionary | Space | proved |
| C02 | Every reachable space is well formed | world of spaces with shared dictionaries (`Model/World.lean`); invariant, induction over the history of calls | World | partial (the full statement is false of the code) |
| C03 | get_row / get_rows return the vectors of the words asked for | `get_row`, `get_rows`; from well-formedness and Python list indexing | Space | proved |
| C04 | Space.vstack keeps every word attached to its own vector | `Space.vstack`; characterisation of success, lookup theorem | Space, StackSim | proved |
| C05 | apply preserves row labels, records exactly one operation and keeps column labels aligned | `Space.apply` with every transformation; case analysis | SpaceApply | proved |
| C06 | Conversions between dense and sparse never change a value | constructors, `resolve_type_conflict`, `to_compatible_matrix_types`; direct | Matrix | proved |
| C07 | set_cooccurrence_matrix accepts a replacement matrix of the right shape | `set_cooccurrence_matrix` with the argument order of the code; refutation, exact acceptance condition | SpaceApply | partial (the full statement is false of the code) |
| C08 | get_sim and get_sims on missing words | `get_sim`, `get_sims`; direct | Similarity | proved |
| C09 | get_neighbours returns the true top-n list | `get_neighbours`; stable descending merge sort, top-n | Similarity | proved |
| C10 | get_neighbours scores equal get_sim scores | `get_neighbours` against `get_sim`; via C11 | Similarity | proved |
| C11 | Batched similarity equals pairwise similarity | batched and pairwise code paths of the four measures; algebra on sums | Similarity | proved |
| C12 | sorted_permutation is a stable descending sort | `sorted_permutation`; sortedness, permutation, stability by induction | Matrix | proved |
| C13 | Cosine similarity is a bounded symmetric scale-free score | cosine over the reals; Cauchy-Schwarz | Similarity | proved |
| C14 | Euclidean similarity | Euclidean over the reals; algebra | Similarity | proved |
| C15 | Lin similarity follows its documented formula | Lin; refutation for components negative in both vectors | Similarity | partial (the full statement is false of the code) |
| C16 | EPMI/PPMI/PLMI compute the documented formulas | EPMI/PPMI/PLMI; algebra, sign lemmas | Scaling | proved |
| C17 | plog is max(0, log x) with 0 for x<1 | plog, dense and sparse, weighting and in place | Scaling | proved |
| C18 | RowNormalization makes non-zero rows unit length / unit sum | row normalisation; sums and square roots | Scaling | proved |
| C19 | Normalization makes the whole matrix sum / length 1 | normalisation; sums and square roots | Scaling | proved |
| C20 | TopFeatureSelection keeps the best k columns | `TopFeatureSelection.apply`; from C12 | Scaling | proved |
| C21 | SVD reduction returns at most k dimensions and M*V equals the reduced matrix | truncation and sign logic of `Linalg.svd`, library SVD specified by its equations; matrix algebra | Svd | proved |
| C22 | NMF factors are non-negative and of the requested shape | `_nmf_nlssubprob`, `nmf` with arbitrary closeness tests and time limit; loop invariants | Nmf | proved |
| C23 | NMF never makes the reconstruction error worse than the initialisation | the same; quadratic expansion of the objective, descent invariant through both loops | Nmf | proved |
| C24 | Peripheral projection of core rows reproduces the core rows | operations and `PeripheralSpace`; induction over the operation list | Peripheral | proved |
| C25 | Peripheral rows are independent of batching | the same; row-wise commutation of every projection | PeriphBatch | proved |
| C26 | A peripheral space has the column labels of its core | the same | Peripheral | proved |
| C27 | Operations must be applied once before being projected | operation state machines; induction over histories of calls | Operations | partial (the full statement is false of the code) |
| C28 | A failed add_rows leaves the peripheral space unchanged | `add_rows` with the in-place dictionary update; refutation, exact damage | Operations | partial (the full statement is false of the code) |
| C29 | add_rows on a peripheral space does not affect other spaces | heap of dictionaries; frame property | World | partial (the full statement is false of the code) |
| C30 | Sparse row access reads the right stored entries | CSR arrays; refinement to `Mat` | Matrix | proved |
| C31 | Sparse element-wise operations agree with the dense ones | CSR arrays; refinement, each method | Matrix | proved |
| C32 | Sparse reshape is row-major and loses nothing | CSR arrays; positions of entries under reshape | Reshape | proved |
| C33 | Sparse reshape index arithmetic does not overflow | int32 words; arithmetic bounds | Reshape | proved |
| C34 | is_mostly_positive means more than half of the non-zero entries are positive | counting; refutation for dense | Matrix | partial (the full statement is false of the code) |
| C35 | all_close agrees between dense and sparse and is symmetric | `allclose` formulas; refutation | Matrix | partial (the full statement is false of the code) |
| C36 | Matrix algebra type and shape errors | matrix methods; direct, all type/shape combinations | Matrix | proved |
| C37 | scale_rows / scale_columns / padd_matrix | matrix methods; direct | Matrix | proved |
| C38 | compose keeps exactly the valid tuples in order | `compose` for every model; list induction (mask, filter) | Compose, FailedCall | proved |
| C39 | compose/train on an empty data list raises ValueError | `valid_data_to_lists`; induction, refutation on the empty list | Compose | partial (the full statement is false of the code) |
| C40 | Weighted additive composition | weighted additive; entry formulas | Compose | proved |
| C41 | Dilation composition | dilation; entry formulas | Compose | proved |
| C42 | Multiplicative composition | multiplicative; entry formulas | Compose | proved |
| C43 | Full additive composition | full additive; entry formulas | Compose | proved |
| C44 | Full additive training and composition agree with the regression | full additive training; stacking algebra and C52 | TrainCompose | proved |
| C45 | Lexical function composition multiplies the word's matrix with the argument vector | lexical function; reshape + product, entry formula | Lexical | proved |
| C46 | Lexical function training learns each function from exactly its own samples | lexical function training; partitions, per-function regression, round trip with C45 | Lexical | proved |
| C47 | get_partitions finds the maximal runs | `get_partitions`; induction on the sorted key list | Partitions | proved |
| C48 | Weighted additive training uses all valid samples and is least-squares optimal | chunked accumulation of normal equations; loop invariant, refutation | TrainCompose | partial (the full statement is false of the code) |
| C49 | Dilation training is least-squares optimal | dilation training; optimality of a quotient (quadratic) | TrainCompose | proved |
| C50 | A composition model gives the same result whatever it composed before | state machine of a model object; refutation | Compose | partial (the full statement is false of the code) |
| C51 | Ridge regression returns the minimiser of its objective | ridge; normal equations imply optimality | Regression | proved |
| C52 | Least squares regression returns a minimiser for dense and sparse input | least squares through the library routine / pinv specification | Regression | proved |
| C53 | Generalised cross validation picks the first minimiser | first argmin over a list | Regression | proved |
| C54 | Ridge learner configuration | constructor state machine | Regression | proved |
| C55 | Indexing structures read from a file are inverse and in first-occurrence order | token lists; fold invariant | IoFiles | proved |
| C56 | Reading a sparse file sums duplicate cells | sum over matching records | IoFiles | proved |
| C57 | Reading a dense file keeps the first line of each row | first record wins; fold invariant | IoFiles | proved |
| C58 | Export to dm and build gives back the same space | writer and reader composed, character by character (tokenizer, labels); number format by the round-trip law of `repr` | RoundTrip | proved |
| C59 | Export to sm and build gives back the same space | the same with `%f`; rounding bound, refutation | RoundTrip | partial (the full statement is false of the code) |
| C60 | The sparse writer labels every stored entry correctly | writer over CSR arrays | IoFiles | proved |
| C61 | export without a format writes the matrix in the default dm format | `export` dispatch; refutation | RoundTrip | partial (the full statement is false of the code) |
| C62 | save/export work for any writable file name | `create_parent_directories`, `save`, `export` on the file-system model; refutation | RoundTrip | partial (the full statement is false of the code) |
| C63 | Space.build argument rules | `Space.build` argument rules | BuildAll, IoSpace | proved |
| C64 | Cross-validation folds form a balanced partition | `get_split_indices` for an arbitrary permutation; slicing arithmetic | CrossVal | proved |
| C65 | AUC is the probability that a positive outranks a negative | `auc` loops; pair counting, refutation on ties | AucShort, Scoring | partial (the full statement is false of the code) |
| C66 | score dispatch | dispatch | Scoring | proved |
| C67 | build_core_space writes one space per option combination | `build_core_space`: enumeration of option combinations, distinct file names, file-system frame | CoreSpace | proved |
| C68 | Command line options override the configuration file | transcribed `getopt` and config lookups; last given value wins | Cli, TrainMore | partial (the full statement is false of the code) |
| C69 | train_composition uses the lambda given on the command line | `train_composition` main; refutation (leaked comprehension variable) | Training | partial (the full statement is false of the code) |
| C70 | The documented long options of compute_neighbours work | getopt tables; refutation | Cli | partial (the full statement is false of the code) |
| C71 | compute_similarities writes one scored line per non-blank input line | `compute_similarities`; line induction, file content | Sims, SimsTotal | proved |
| C72 | Matrix-valued elements cannot be reduced or selected | operations on matrix-valued elements; refutation | SpaceApply | partial (the full statement is false of the code) |
| C73 | A supplied row dictionary keeps working when the space grows | `add_rows` histories; refutation for negative positions | World | partial (the full statement is false of the code) |
| C74 | A wrong command line is reported by the exit status | getopt errors; refutation for every script | Cli | partial (the full statement is false of the code) |
| C75 | read_tuple_list and read_list return the requested fields of every non-blank line | readers; line induction | Reading | proved |
| C76 | train_composition stores the requested model trained on the given data | `train_composition` end to end on the file-system model | TrainMore, Training | proved |
| C77 | The --intercept option of train_composition is honoured | option handling; refutation | TrainMore | partial (the full statement is false of the code) |
| C78 | The model names documented by train_composition are accepted | model table; refutation | TrainMore | partial (the full statement is false of the code) |
| C79 | apply_composition stores the composed space | `apply_composition` end to end | ApplyComp | proved |
| C80 | A model trained by train_composition is what apply_composition loads | two scripts chained through the file system (pickle round trip as hypothesis) | ApplyComp | proved |
| C81 | build_peripheral_space stores the peripheral space of the core | `build_peripheral_space`, one file and directory mode | PeriphScript | proved |
| C82 | compute_neighbours writes the neighbours of every input word | `compute_neighbours` end to end | Neighbours, SimsTotal | proved |
| C83 | evaluate_similarities scores the two requested columns | `evaluate_similarities` end to end | Neighbours | proved |
| C84 | A missing required option is reported | every script's required options | MainExit | proved |
| C85 | The --log option accepts any writable file name | `config_logging`; refutation | MainExit | partial (the full statement is false of the code) |
| C86 | Exported model parameters read back as the trained ones | decimal rendering of parameters; rounding bound | ModelExport | proved |
| C87 | --help always works | help option; refutation | MainExit | partial (the full statement is false of the code) |
| C88 | Column numbers start at one | column numbers; refutation | Neighbours | partial (the full statement is false of the code) |
| C89 | The two space-building scripts agree on the core's own data | two scripts chained: C24 lifted through files | PeriphScript | proved |
| C90 | An interrupted script leaves at most one broken file | small-step disk model (`Model/Crash.lean`): set of all intermediate disks of every script; safety invariant by induction over the script | Crash | proved |
| C91 | save replaces a file atomically | the same for one `save`; refutation | ModelExport | partial (the full statement is false of the code) |
| C92 | An interrupted script can be run again | rerun from any intermediate disk: bisimulation `Near` between the disks of the two runs | Rerun | proved |
| C93 | Transformations never change the matrices they are given | matrix heap (`Model/Heap.lean`): programs extend the heap (frame) and refine the value model | Heap | proved |
| C94 | The result of a transformation is independent of its argument | matrix heap: buffers of results are new; separation preserved by in-place calls | Heap | partial (the full statement is false of the code) |
| C95 | An in-place method changes only the matrix it is called on | matrix heap: separation invariant over all histories; refutation | Heap | partial (the full statement is false of the code) |
| C96 | Every NMF initialisation is a valid starting point | `nndsvd_init` and `random_init` (`Model/NmfInit.lean`); sign argument on singular triples of a non-negative matrix | CoreTotal, NmfInit | proved |
| C97 | The numbers of a space built from files are those of the data file | `Space.build` on the file-system model; the readers' theorems (C56, C57) lifted through `build` | Build | proved |
| C98 | A peripheral space built from files has its counts under the right columns | `PeripheralSpace.build`; refutation: the column labels of the files are dropped and the core's are used by position | Build | partial (the full statement is false of the code) |
| C99 | SVD reduction loses as little as possible | the SVD back end is specified by `IsSvd` / `TopTriples` (textbook); the Eckart-Young theorem is proved in Lemmas/EckartYoung from Mathlib's inner product spaces, then applied to the matrices the model of `Svd.apply` returns | SvdBest | proved |
| C100 | SVD reduction never moves words apart | Bessel's inequality for the transformation matrix, lifted through `Space.apply` and `get_sim`; equality from the inner products of C21 | SvdBest | proved |
| C101 | Normalisation does not change cosines | cosine is invariant under positive scaling of each row; `TopNeighbours` determines the list uniquely | Invariance | proved |
| C102 | Association weights do not depend on the corpus size | the formulas of C16, C18, C19 are homogeneous of degree 0 (PLMI: 1) | Invariance | proved |
| C103 | The order of the words does not matter | row-wise form of every scaling and of column selection (`RowMap`), statistics invariant under permutation of rows; induction over the sequence | Invariance | proved |
| C104 | A word is its own nearest neighbour | Cauchy-Schwarz plus the specification of neighbour lists (C09) | Invariance | proved |
| C105 | Training recovers a model that explains the data exactly | training error minimality (C48-C53) with minimum 0, then the composition formulas (C44-C47) | Realizable | proved |
| C106 | The order of the features does not matter | every statistic is invariant under permutation of the columns; induction over the sequence of scalings | ColumnOrder | proved |
| C107 | Stacking many matrices is stacking them one after the other | induction over the list of matrices | Stack | proved |
| C108 | Batch runs refuse a wrong input directory and skip files of other kinds | file-system model of the batch drivers; frame | BatchDir | proved |
| C109 | A misspelt or meaningless constructor argument is refused | constructors over arbitrary keyword dictionaries (Model/Ctor); case analysis | Ctor | proved |
| C110 | A constructor uses every argument it is given or refuses it | constructors over arbitrary keyword dictionaries; refuted by two calls, true part by case analysis | Ctor | partial (the full statement is false of the code) |
| C111 | The documented defaults of LexicalFunction hold | constructor followed by train; refuted by the defaults in the code, true part by unfolding | Ctor | partial (the full statement is false of the code) |
| C112 | Exporting and reading again twice is the same as once | file-system model; composition of C59's round trip with the stability of '%f' on its own output | RoundTrip2 | proved |
| C113 | Projecting new words into a reduced core never moves them apart | composition of the projection lemmas (C24) with the contraction property of truncated SVD (C100) | PeriphSvd | proved |
| C114 | The order of the training data does not matter | the training formulas are sums over the samples, invariant under List.Perm; ridge regression is a function of XᵀX and XᵀY; the shortest least-squares solution is unique (parallelogram identity) | TrainOrder | partial (the full statement is false of the code) |
| C115 | A composed vector depends only on its own words | corollaries of the full specification of compose (C38, C45): knownTriples distributes over append, phrases are distinct | ComposeMore | proved |
| C116 | Multiplicative and additive composition do not depend on the order of the constituents | corollary of C38 with commutativity of multiplication and addition | ComposeMore | proved |
| C117 | Stacking spaces keeps their similarities | composition of C04 (words keep their vectors) with the row-wise formula of get_sim (C08) | StackSim | proved |
| C118 | The similarity and evaluation scripts fit together | composition of C71 (lines written) with C83 (lines evaluated): splitting an output line gives the input fields plus the printed number, which the number parser reads back | Chain | proved |
| C119 | A larger ridge parameter shrinks the model and never improves the fit | normal equations of the ridge problem; monotonicity of penalised minimisers in the parameter; parameter 0 is IsLstsq through the pseudo-inverse hypothesis | RidgePath | proved |
| C120 | Asking for fewer neighbours gives the first of the longer list | uniqueness of TopNeighbours and its closure under take (Invariance) | SimMore | proved |
| C121 | Similarity between two spaces does not depend on the direction | symmetry of the measures on vectors (simVal_symm) through the get_sim formula (C08) | SimMore | proved |
| C122 | Repeating a normalisation or selecting features in steps changes nothing | C19 for the total after normalisation; uniqueness of the best-columns specification and its closure under take/range | Twice | proved |
| C123 | Linear reductions commute with composition | composed rows are linear (or entrywise) in the rows of the argument space, the projection is multiplication by the stored matrix (or the selection of the stored columns); exchange of finite sums | ComposeReduce | proved |
| C124 | Processes on different files do not influence each other | processes as trees of system calls (Model/Conc) that take turns; simulation of every interleaving by the solo runs, invariant by induction on the schedule (Lemmas/ConcCore) | Conc | proved |
| C125 | Scripts may run at the same time | the scripts as such processes (Model/Conc); alone they do what the big-step model says (Lemmas/ConcSolo); what they look at and change is bounded by their settings (Lemmas/ConcFoot); then C124 | Conc | proved |
| C126 | Different files can be saved at the same time | C124 for existing directories; refutation by a schedule of `exists`/`makedirs` calls, for `io_utils.save` and for two runs of build_core_space | ConcSave, ConcScript | partial (the full statement is false of the code) |
| C127 | Loading a file while it is saved gives the old or the new content | invariant on the state of the save over every schedule of readers; refutation: a reader between `open(.., 'w')` and the first write | ConcSave | partial (the full statement is false of the code) |
| C128 | Loading checks the file and its type | case analysis of `load`; for the scripts the runs with every intermediate disk state (`Model/Crash`) see no other disk than the initial one | LoadType | proved |
| C129 | Indexing a matrix | case analysis of the index normalisation, extensionality of matrices | Index | proved |
| C130 | Which files Space.build accepts | the readers are total: each step succeeds iff a predicate on the text holds; case analysis over the stages of `Space.build` | BuildAll | proved |
| C131 | With a correct numerical library training succeeds and is optimal | composition of C44, C46, C48, C51-C53 under `Env.Ideal` (Spec/Backend); `Lemmas/Ideal` proves that such a back end exists (singular value decomposition and pseudo-inverse from the spectral theorem) | IdealTrain | proved |
| C132 | Malformed lines and numbers: the first one decides | the line loops of the three scripts, `floatOpt`, `floatList` and `pyInt`; induction over the lines before the first bad one, case analysis on what is wrong with it | BadLines | proved |
| C133 | Training and applying a model from end to end | `trainModel`, `mainTrain` and `applyModel` with an ideal `Env`; totality of every training and composition step (C131, C49, C79) plus determinism of what was read, and the frame of `save` for the second run | EndToEnd | proved |
| C134 | Building core spaces from end to end | `DimRedT.apply`, `Space.applyAll`, `buildSpaces` and `buildPeriph` with an ideal `Env`; Bessel's inequality shows that a matrix stretching a unit vector beyond 10⁻¹² has a singular value beyond it; totality of each kind of transformation, then C67_succeeds, C24 and C81 | CoreTotal | proved |
| C135 | A call on a composition model that raises leaves the model as it was | `Model/ModelState`: state-passing versions of every train method (the assignments in the order of the code), proved to have the outcomes and results of `Composer.train` / `LexFun.train`; inspection of every exit, induction over the calls of a session for the history; the two refutations compute what composes after the failing call | FailedCall | partial (the full statement is false of the code) |
| C136 | Writing the same content to the same file at the same time is harmless | the list of effects (truncation of a node, one character at an offset) of a program that meets an unchanged disk at every node but the shared ones (`Calm`); invariant of all schedules: each node is reached from its old content by an interleaving of effects, and while all writers of a node write the same text every prefix of what is on disk agrees with it, so that the last effect completes it; the seven scripts are shown to be calm | ConcShared | proved |
| C137 | A file saved by several processes at once holds what one of them saved | refutation: schedules of two saves that leave a mixture and a hole; partial: the same invariant for a save whose steps are consecutive | ConcShared | partial (the full statement is false of the code) |
| C138 | Repeating the training data does not change a trained model | the sums over the training pairs scale by k, and pseudo-inverses and least-squares problems with them; ridge regression with a k times larger parameter; refutations for dropped partial chunks and the sample threshold | Repeat | partial (the full statement is false of the code) |
| C139 | Configuration files | the reader of ConfigParser transcribed line by line (Model/Config); invariant between its state and what the lines read so far say (Spec/Config), by induction over the lines; with the option tables of C68 for the command lines | Config | proved |
| C140 | The correlation scores | the coefficients of the textbook (Spec/Correlation) as hypothesis about scipy.stats; Cauchy-Schwarz over lists with its equality case, invariance of means, co-deviations and ranks under permutations and strictly monotone maps; with C83 for the script | Correlation | proved |
| C141 | Association weights compare the counts with those expected by chance | from the formulas of C16: expected counts have the same total as the counts (exchange of sums), so no cell above expectation means all cells at expectation; log x >= 1 - 1/x for the mutual information | Association | proved |
| C142 | Reducing to fewer dimensions keeps the first of more dimensions | both reductions truncate one decomposition (hypothesis SvdOnce on the library), so they differ by a common sign; sums of squares over fewer columns are smaller | SvdNested | proved |
| C143 | After row normalisation by length the similarity measures agree | row normalisation gives unit rows (C18); cosine, dot and distance identities on the rows; neighbour lists are determined by the order of the scores | UnitRows | proved |
| C144 | Feature selection keeps what matters | sums over the selected columns are sums over a subset of the columns (C20); exchange argument for optimality | SelectSim | proved |
| C145 | Special cases of the composition models | from the composed vectors of C38/C40-C45 by algebra on sums | ComposeSpecial | proved |
| C146 | Rescaling the word vectors does not change the cosines of phrases | composition of rescaled rows is a rescaled composition; cosine and neighbour lists are invariant under positive row scaling (C101) | ComposeSpecial | proved |
| C147 | Least squares and ridge regression with parameter 0 are the same learner | pseudo-inverse of the Gram matrix times the transpose satisfies the Penrose conditions of the design matrix; the shortest least-squares solution is unique; congruence through the training loops | RidgeZero | proved |
| C148 | compute_neighbours and compute_similarities print the same scores | C82 and C71 say what the two files contain; both scores are the value of get_sim on the loaded spaces (C10), so the printed texts are equal. | ScriptsAgree | proved |
| C149 | Core spaces may be built in two runs of the script | Choice.Result composed along SplitInto from C67_every_combination of both runs; the meaning of an option is unique (wmeans_unique, …), so without NMF the two runs store the same pickle as one run | TwoStage | proved |
| C150 | An exported core space can be used as an input again | C58/C59 round trips lifted through the job list of the run (C67_every_combination, HoldsSpace.exported); the refutation follows a stale .cols file through the run (FilesKept: no script step removes a file) | TwoStage | partial (the full statement is false of the code) |
| C151 | What regression does when numpy cannot compute a pseudo-inverse | ridge_regression computed with an arbitrary matrix in place of the pseudo-inverse (ridgeRegression_tmp), instantiated with the identity that the except branch uses; other exceptions through ridgeRegression_eq; the learners through C53 | NoPinv | proved |
| C152 | Trained models are homogeneous in the phrase vectors | Learner by learner: the unique minimum-norm least-squares solution and the pseudo-inverse formula are linear in the right-hand side; the cross-validation errors are all multiplied by |k|, so the first minimum is at the same grid index; then the two trainings are run through C44/C46 side by side. | TargetScale | proved |
| C153 | Results do not depend on the orthonormal basis | Dot products of turned vectors are those of the vectors. For the learners: the design matrix, the regularised Gram matrix, its pseudo-inverse (by uniqueness), the trace of the hat matrix and the residual norm are followed through the change of basis; the unique minimum-norm least-squares solution is carried along; cross validation sees equal scores. | Basis | proved |
| C154 | The two constituents are treated alike in training | The exchange of the two constituents is an orthogonal change of basis of the joined vectors, so the learner lemma of C153 applies; for WeightedAdditive the 2 by 2 Gram matrix is conjugated by the exchange matrix and its pseudo-inverse with it. | Basis | proved |
| C155 | What was never counted stays zero | every operation is a map on rows (Lemmas/RowMap); each fixes zero cells respectively the zero row; for the core via the reproduction lemma of C24 | RowLaws, RowLawsAdd | proved |
| C156 | Words with the same counts have the same vector | operations as row maps: equal rows give equal rows; EPMI, PPMI and row normalisation as first operation are invariant under scaling of the row | RowLaws, RowLawsAdd | proved |
| C157 | Pooling counts adds vectors when no non-linear weighting is used | matrix normalisation, column selection and multiplication with the SVD matrix are linear row maps; composition of linear maps | RowLaws | proved |
| C158 | The similarity measures describe one geometry | the vectors are embedded in Mathlib's EuclideanSpace; norm and angle triangle inequalities, Cauchy-Schwarz | Geometry | proved |
| C159 | Stacking spaces: grouping, order, normalisation and composition | from the description of stacked spaces (C04), the row-wise form of PLOG and row normalisation and the description of composed spaces (C38) | StackMore | proved |
| C160 | Words that do not occur in the training data do not matter | LookAlike P s t: equal get_rows on words of P; the outcome of training is the same value or exception; the weighted model is refuted with two phrase spaces of 2 and 15 rows | Locality | partial (the full statement is false of the code) |
| C161 | A space stored densely and the same space stored sparsely give the same results | twins (two spaces equal but for the matrix class); each scaling and feature selection is computed for both classes and compared, similarity and neighbours from C08/C09, composition from C38, training from the closed forms of C131/C147, GCV by induction over the grid; the SVD counterexample computed by hand | Classes | partial (the full statement is false of the code) |
| C162 | Turning predictions or classes around turns the AUC around | double sums over (negative, positive) pairs: C65's closed form, swapping the sums, and w(n,p) + w(p,n) = 1 + [n = p] | AucTurn | partial (the full statement is false of the code) |
| C163 | Peripheral rows may be given densely or sparsely | the row-wise description of projections (whether rows are accepted does not depend on the class); induction over the transformations for the class of the projected rows, over the batches for add_rows | PeriphClasses | partial (the full statement is false of the code) |
| C164 | build_core_space refuses operations it does not know | the option grammar of the specification against the parsing of the names, the jobs of a run for the sizes, a direct run for the unknown names | Misspelt | partial (the full statement is false of the code) |
| C165 | Output file names tell runs apart | The last path component of every output name is cut at its dots (names of documented operations, models, classes, measures and extensions contain none), so equal files give equal inputs and options; combined with the 'no other file is touched' theorems of each script. The refutation computes the common name of two different results and follows both runs. | OutNames | partial (the full statement is false of the code) |
| C166 | Phrases can be composed from phrases | Two calls of compose in a row: the first result is well formed with the column labels of the words, so the second call succeeds (C38) and its vectors unfold to the nested formula; grouping by algebra. The refutation follows the missing column labels of FullAdditive(A, B) into the check of the second call. | Nested | partial (the full statement is false of the code) |
| C167 | Feature selection and peripheral words | The operation appended to the core selects columns of whatever the earlier operations made of the new rows; sums over the kept columns are sub-sums. The refutation computes both similarities for a feature only a peripheral word has. | PeriphSelect | partial (the full statement is false of the code) |
| C168 | Weightings that look at one word at a time | PLOG and row normalisation remember nothing about the space, so applying them is projecting: both results are the same row map applied to the row of the word. | OwnCounts | proved |
| C169 | A word known to the core space finds itself | C24's reproduction lemma gives both words the same vector; similarity 1 and the order of the list follow from the specification of get_neighbours as in C104. | FindsItself | proved |
| C170 | Features that no word has do not matter | All row, column and matrix sums in the specifications of the weightings (C16-C19) and in the four measures agree for a matrix and the same matrix with further zero columns; induction over the sequence. | UnusedFeatures | proved |
