# Formal model of dimazest/dissect (DISSECT) in Lean 4

First written before the proofs and kept current (the table of section 6 is generated by `tools/gen_design.py`).
`/repo` is Python 2 with numpy/scipy; it is read as text only.

## 1. Layout

* `lean/Verif/Model/*.lean` - shallow, total, function-by-function models. Every definition cites the file and lines it
  models and states any simplification. Exceptions are values (`Except PyErr α`); a method that mutates its receiver
  returns the new receiver together with the outcome, so a state change made before a `raise` stays visible.
* `lean/Verif/Spec/*.lean` - small independent specifications (what the English property says).
* `lean/Verif/Lemmas/*.lean` - helper lemmas.
* `lean/Verif/Props/*.lean` - the theorems of property Cxx, named `Cxx_...`, with `example`s showing that a concrete
  non-trivial case meets the hypotheses. A property the code violates has a theorem `Cxx_..._refuted` (a concrete
  counterexample, or a refutation for all inputs), and what remains true is proved with the suffix `_partial`; the doc comment of
  each `_partial` theorem says what is missing.
* `lean/Verif/Examples/*.lean` - the theorems applied, by name, to concrete spaces and matrices (further non-vacuity checks).
* `MANIFEST.json` (status and theorem names), `AXIOMS.md` (axioms of every manifest theorem), `seeded/` (wrong programs
  tried against the theorems), `tools/` (generators of the files above; not part of the proof).

## 2. Trusted base

* Lean 4.33 kernel, and the Mathlib definitions that occur in statements (ℝ, ℤ, ℚ, lists, finite sums, `Real.sqrt`, `Real.log`, ...).
* Axioms: every theorem depends on a subset of `propext`, `Classical.choice`, `Quot.sound`. `AXIOMS.md` lists them theorem by
  theorem. No axioms of our own; no compiled evaluation.
* The hand translation Python -> Lean (checked by reading only), including the semantics of Python 2, numpy, scipy,
  `getopt`, `ConfigParser` and `os` quoted in the comments.
* Hypotheses that stand for code outside the repository. They are visible in the theorem statements:
  * `IsSvd`, `SvdCallOk`, `IsPinv`, `IsLstsq` (Spec/Svd, Spec/Regression): the textbook specification of `np.linalg.svd`/`sparsesvd`,
    `np.linalg.pinv`, `np.linalg.lstsq` for the concrete call;
  * `Env.Ideal` (Spec/Backend): all of these for every input at once. `idealEnv_ideal` (Lemmas/Ideal) proves that a back end with this property exists, so
    the hypotheses about back ends are jointly satisfiable;
  * `NumIO.Laws` (Spec/Io): how Python prints and parses numbers (`float(repr x) = x`, `'%f'` within 5e-7 of the number, no white space
    in a printed number);
  * `undump (dump x) = x` for pickle; a listing of a directory is a permutation of its entries.

## 3. What a model value is

* **Numbers.** Entries are elements of an arbitrary type where only movement of entries matters, of an arbitrary (ordered) field
  where only arithmetic matters, and of `ℝ` where `sqrt`/`log` occur. Rounding, NaN and infinities are not modelled, except where a property is
  about number formatting, and for int32 wrap-around in `SparseMatrix.reshape`.
* **Matrices.** `Mat K` = shape and entry function that is 0 out of bounds (so `=` is the natural equality). A repository matrix is `TMat K` =
  class tag (`dense`/`sparse`) + `Mat K`. The CSR arrays are modelled in `Model/Csr.lean`, with theorems that the methods of `SparseMatrix`
  touching them compute the same `Mat` as the dense counterparts; object identity, shared arrays and in-place changes are
  modelled in `Model/Heap.lean`, with theorems that the programs there compute what the value model says. Together these justify using
  `TMat` elsewhere.
* **Dictionaries** are association lists with distinct keys in insertion order; values are Python ints, negative list indices behave as in Python.
  Sharing of dictionary objects between spaces: `Model/World.lean`.
* **Text** is a list of characters; tokenizing, stripping, splitting and path functions are transcribed.
* **Numerical back ends**, random draws, `time()`, `random.shuffle` and `np.allclose` inside NMF are parameters (`Env`, `Chance`).
  Every numerical routine (`np.linalg.svd`, `sparsesvd`, `np.linalg.pinv`, `np.linalg.lstsq`) may raise any exception (e.g. `LinAlgError`: no convergence); theorems that need
  an answer say so, by `Env.Ideal` or a hypothesis on that call.
* **Element types** (`dtype`) are not modelled: every division in the code is made between floats (`float(...)`, `astype(double)`, `np.sqrt`), so an integer matrix behaves like
  the matrix of the same reals, except for overflow.
* **Labels** are hashable values compared by `==`; a tuple as a row label makes the *message* of `get_row`'s KeyError (`"%s" % (word)`) fail instead.

## 4. Modelled code

All of `src/composes` and `src/pipelines` except the list of section 5:
matrix classes and `linalg.py`; spaces, peripheral spaces and operations; scalings, feature selection, SVD, NMF (all three initialisations); similarities;
composition models and regression learners; readers, writers, `Space.build`, `Space.export`, `save`/`load`; cross validation and scoring;
the seven pipeline scripts from `sys.argv` (getopt, configuration file) to the files on disk, also for interrupted runs.

Simplifications that are not visible in a statement:
* file system: no permissions, links or `..`; a `.gz` file is its uncompressed content; opening `file/` for reading is accepted;
* interrupted runs (`Model/Crash.lean`): creating a directory and creating/truncating a file are single steps, text reaches the disk as a prefix of what is written,
  files reach the disk in program order; if both producing the text and opening the file would fail the model may report the other of the two errors;
  content of log files is not modelled;
* `chunk_size = int(rows * 0.2 / 3.0) + 1` is computed exactly as `rows / 15 + 1` (checked against floating point for all rows below 3,000,000);
* `eval` of option strings (`train_composition.py`) is an abstract parser; pickle is an abstract injective encoding; what `ConfigParser` makes of a
  file is an arbitrary function in the theorems about scripts; its line format is modelled in `Model/Config.lean` (C139) without
  `%(name)s` interpolation and without the `__name__` entry of sections;
* `build_peripheral_space` in directory mode: theorems assume that the output directory differs from the input directory;
* matrix heap: numpy matrices are stored row by row; `numpy.ndarray` arguments (always copied) are left out.

## 5. Not modelled

Printing to the terminal (except `evaluate_similarities`, whose only effect it is) and text of log files, `warnings.warn`, timing and memory
usage (`mem_utils`), pickle byte format, gzip, dtype promotion, `__str__`, help texts, the numerics of `scipy.stats` (Pearson and Spearman are parameters; C140 assumes that they are the textbook coefficients, `StatsLib.Correct` in `Spec/Correlation.lean`),
raw numpy/scipy arguments of `to_compatible_matrix_types`, NaN/inf, rounding, `src/examples`, `src/unitest`.
The summaries that `log_utils` prints could raise only for a sparse matrix without cells (`%d` of nan), which no file can produce.

## 6. Properties: what is modelled, how it is proved

Nothing had to be declared `not_applicable`. "False of the code" rows carry a machine-checked refutation.
