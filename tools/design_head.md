# Formal model of quantas in Lean 4: design

## 1. What is being built

`/verif/lean/Verif/` holds a Lean 4 model of the Python/Cython package `quantas`
(source in `/repo`, read as text only) and theorems about it.  Each area has up to four kinds of file:

* `*/Model.lean` and siblings named after the code - the code, function by function; every definition cites file and lines;
* `*/Spec.lean`, `*Spec.lean` - small specifications written without the code's formulas;
* `*/Lemmas.lean`, `*Lemmas.lean` - proof work;
* `*/Props.lean`, `*Props.lean` - the property theorems (the ones named in `MANIFEST.json`, all called `Cnn_...`);
  an `example` beside each theorem, in `*Witness.lean` or in `*/Cases.lean` (the theorems applied to concrete cases), shows a
  non-trivial case that meets its hypotheses.

When the code violates a property, the code is modelled as it is, the *negation* is proved
(theorem name ending in `_violated`, on a concrete witness or, where possible, for every case), and the
part that does hold is proved in a theorem with suffix `_partial` (or without suffix when that part
is a complete clause of the property).

## 2. Modelling conventions (simplifications)

* **Numbers.** IEEE doubles are real numbers (`Real`) in physics code and rationals in text IO.
  Rounding of arithmetic, overflow, NaN and signed zeros are not modelled, except where a definition says so
  (`Grid/Float.lean` models binary64 rounding, without limits of the exponent, for the temperature and pressure grids).
  Rounding *on printing* (`{:.6f}`, `{:.12e}`) is modelled exactly, half to even on the rational value.
* **Exceptions** are values: `Except Err α` / `Option α`.  The error carries the exception class (`Verif.Py.PyErr`) or the message.
* **Arrays** are lists, `Fin n → α` or `Matrix`.  NumPy broadcasting is expanded by hand.
* **Aliasing and class attributes** (mutable class-level dictionaries, arrays and flags, `np.asarray`, in-place operators)
  are explicit state, threaded through the functions, whenever a property depends on it.
* **External numerics** (scipy ODR, curve_fit, quad, eigh, pinv, polyfit, roots, brute/minimize) are parameters.
  What is assumed of them appears as a hypothesis of the theorem (`IsLeastSquares`, `RootFinder`, `EighCorrect`, `PinvCorrect`, ...);
  satisfiability of each such hypothesis is proved.
* **Text** is `List Char` with Python's `split`, `strip`, `lower`, `in`, `readlines`, `format` modelled on ASCII.
* **Loops** that may not terminate are run with fuel; theorems say which fuel suffices, or that none does.
* **Files** are a finite map from path to contents; HDF5 files are trees of data sets with attributes; YAML documents are trees
  (the reading of the generated text into a tree is specified separately in `Phonon/YamlSpec.lean`).
* **Users** at the keyboard are streams of answers; theorems quantify over all streams.
* **Physical constants** form a structure with positivity; the CODATA instance is the witness.

## 3. Trusted base

* Lean 4.33.0's kernel.
* Axioms: `propext`, `Classical.choice`, `Quot.sound`, nothing else.  `AXIOMS.txt` lists, for every theorem of the
  manifest, the axioms it depends on as printed by `#print axioms` (regenerate with `tools/axioms.py`).
  No `sorry`, no own axioms, no `native_decide`, no `bv_decide`.
* Mathlib's definitions of the reals, `exp`, `log`, `rpow`, derivatives, integrals, matrices.
* The hand translation from Python/Cython to Lean (each definition cites its lines and its simplifications).
* The specifications (`*Spec.lean`) as renderings of the English properties.

Which module models which source file:

| module | models |
|---|---|
@MODULES@

Functions of the package that no definition cites (@COVERED@ functions are cited).  These are not
modelled; most are constructors, accessors, printing of settings, citations, titles of figures, and the unused module
`IO/hdf5_export.py`.  Matplotlib, click's parsing, h5py's storage format and the optimisers' internals are outside the model as well.

| file | not modelled |
|---|---|
@UNCOVERED@

## 4. Properties: what is modelled and how it is proved

| id | model | proof |
|----|-------|-------|
@PLAN@

## 5. Results

| id | property | status | theorems | note |
|----|----------|--------|----------|------|
@RESULTS@

## 6. Tests against wrong programs

`seeded/LOG.jsonl` records every edit of a model definition that was tried (`tools/mutate.py` applies the edit in a scratch copy
and rebuilds).  An edit that no theorem notices is either equivalent to the original (the entry says so) or led to a tightened theorem
(named in the entry).

## 7. Disagreements between the code and its documentation that are not a property of their own

* The third column of the Poisson ratio table of the log is headed "measurement" although it is the maximum.
* The result files record the compliance in TPa^-1 although it is in GPa^-1, and Poisson's ratio of the averages in GPa (C95).
* Without `--polar` the placeholders of the polar sections are saved, and the exporter offers them as tables (C96).
* Constants below 0.001 of a nearly orthorhombic solid are dropped by the fast formulas (C94).
* Column 14 of the seismic file is announced as log10 of the enhancement factor but holds the factor (C65, C98).
* The `error` attribute of an exporter persists over later loads by the same object.
* The seismic export command is defined but not registered; the documentation's `quantas eos` and `quantas --ha` are not commands (C93).
* A quasi-harmonic file that is refused has already replaced the temperatures shared by the harmonic exporters (C87).
