# DESIGN — a machine-checked model of AP6YC/cvi (Lean 4, Mathlib)

## 1. What is modelled

`/repo/src/cvi`: `modules/_base.py`, the nine index classes in `modules/`, and `compat/v0.py`.
Every model definition carries the file and line range it was written from.

| Lean file | Python source |
|---|---|
| `Num.lean`, `Py.lean`, `Linalg.lean` | numpy numbers, Python exceptions and mutation, arrays, `det`, `inv` |
| `Model/Base.lean` | `_base.py`: `LabelMap`, `CVI`, `get_cvi`, `_add_docs` |
| `Model/Common.lean` | statements shared by several classes (same text in each class) |
| `Model/{CH,WB,XB,DB,GD43,GD53,PS,RCIP,CSIL}.lean` | the nine classes: `_setup`, `_param_inc`, `_param_batch`, `_evaluate` |
| `Model/All.lean` | the list of classes exported by the package |
| `Model/Alias.lean` | references to the caller's arrays kept by `_setup` |
| `Gen/{Arith,Common,CH,…,CSIL,All}.lean` | `_base.py` and the nine classes again, over an arbitrary arithmetic |
| `Compat/V0.lean` | `compat/v0.py` |

Not modelled: packaging, documentation, tests, type annotations, numpy warnings, `__repr__`.

### Numbers
`XR = fin (r : ℝ) | pinf | ninf | nan`: the special-value arithmetic of IEEE-754 over exact reals.
`x/0` is `±inf` or `nan`, `nan` absorbs, `inf*0 = nan`, `np.min`/`np.max` propagate `nan`.
**Not modelled in `XR`: rounding, overflow, underflow, signed zeros, integer dtypes** (for these see below).
In the theorems about `XR`, "equal" means "equal in exact arithmetic".  They say nothing about cancellation in the running updates.

### Every arithmetic
C62–C67, C70–C72 (and C02–C05, C07, which do not look at numbers) are about the same programs over an arbitrary type `F` of floats with arbitrary operations: `class Arith F` (`Gen/Arith.lean`) has one
field for every numpy or float operation the code uses and **no law at all**.  So these theorems hold for float64 with its rounding, overflow, underflow,
signed zeros and whatever order numpy sums in.  They are not about float32 samples: the tables made by `np.zeros` are float64,
so that there numpy mixes two precisions, which one type `F` does not describe.  What is assumed is only that the result of an operation depends on the values of its operands
(not, say, on the memory alignment that some BLAS kernels look at), and that operations on arrays have the shapes numpy documents.
`Gen.mod F I` is the class `I` in the arithmetic `F`; `Gen.mod_XR` proves that over `XR` it is the model all other theorems are about, so there are not two models
to be trusted.  `Gen/Spec.lean` is the specification: folds over the samples of one cluster (`Stat.of`, `Sil.of`, `Gauss.of`), no tables and no state;
`Gen/SpecBatch.lean` the same for batches: expressions over the rows of the clusters `0 … k-1`.
C68 and C69 assume the *standard model* of floats: structures `Standard` (`Gen/Rounding.lean`) and `StandardDot` (`Gen/RoundingCP.lean`) say that `+`, `-`, `*`, `1 / n`,
`1 - 1 / n` and `np.inner` are exact up to a relative error (`u`, for `np.inner` `γ`), a product that underflows up to an absolute error `η`, as long as the result is in range.
These are hypotheses of the theorems, not axioms; C73 proves that IEEE-754 binary64 satisfies them with `u = 2^-53`, `η = 2^-1075`, `γ = 2 d u` for `np.inner` in every order of summation
and with or without fused multiply-add.  `B64` (`Gen/B64.lean`) is binary64 as an executable definition: a sign and a multiple of `2^-1074`, rounding to nearest even, gradual
underflow, overflow, infinities, NaN, signed zeros; that this *is* binary64 rests on reading the 100 lines of definitions (they were compared with the hardware on 2400 random
operations).  What IEEE-754 leaves open (order of summation, `exp`, powers, `det`, `inv`) is a parameter `Lib`; `Lib.plain` adds from left to right and serves for examples.
C75 and C76 use `StandardFull` (`Gen/RoundingSum.lean`): also division, `(n - k) / (k - 1)`, `sqrt`, minimum, maximum, `np.sum` in any order, and that Python's `sum` adds from
left to right starting at 0 (the compensated summation of Python 3.12 is used for exact `float`s only; the tables hold `np.float64`).  C77 proves it for binary64.  C78 adds `StandardBatch` (`Gen/RoundingBatch.lean`): `np.mean` of a column is a sum, in any order, divided by the
number of rows; `np.sum` of a two-dimensional array adds all entries in any order.  C79 proves it for binary64.
C81 and C82 assume that `np.exp` has absolute error at most `κ` on non-positive numbers (`StandardExp`, `Lib.ExpNear`; `Lib.withExp` is a library for which `κ = 2^-51`); C83 that
`np.sum(.., axis=1)` adds each row in some order, and that `np.maximum` and `np.any` are exact (`StandardSil`; proved for binary64).  C88 uses the same; its reference is `CSIL.actual`, what
the code computes in exact arithmetic (C19), and not the index.  C75–C88 together cover the nine classes in both modes.
C90 assumes that numpy adds in an order that depends on lengths and shapes only, not on values (`Lib.Ordered`, `Lib.OrderedCov`; any association, with or without fused multiply-add), that `exp(-0.0)` is `exp(0.0)` and that `10.0 ** x` is not negative.
C94 assumes the same of sums (`Lib.Follows`, with the orders given as data `Orders`, because the flags depend on them), nothing about `exp`.
C84 assumes that entries of a product of matrices are inner products in some order and that `10 ** (-12 / d)` is accurate (`StandardCov`; `Lib.Products`, `Lib.DeltaNear`).
C85 assumes of `np.linalg.det` and `np.linalg.inv` what numerical analysis calls backward stability (`StandardLinalg`, `Lib.Linalg`): they return nearly the right answer
(up to `κ`) to nearly the right question (a matrix within `κ β` of the argument, entries up to `β`), for `inv` in each column separately; nothing is assumed if there is a singular matrix that near.
`Lib.rounded` (every function the exact one, rounded) is proved to satisfy it with `κ = 2^-51`.  The condition `Fits` compares the errors with `δ = 10 ** (-12 / d)`:
for one feature `δ = 10^-12`, of the size of the rounding errors of covariances of numbers around 1, so the value of rCIP is guaranteed for small numbers only; with two features up to 1 (`corners_fits`) `θ = 2^-13`, and `δ` grows with `d`.
The bounds are relative to `Spec.value` of the real data set the floats stand for (`Gen.real`); the condition number enters as `β`.
C86 assumes only that sums and inner products are computed in some order (`Lib.AnyOrder`) and, for PS, that `np.exp` of NaN is NaN; nothing about the range of the numbers.
`fin s m` with a magnitude that needs rounding is not a binary64 number; the theorems hold for such operands too.  `R53` (`Gen/R53.lean`: reals rounded to 53 binary digits, with unbounded exponent; `det`
and `inv` are placeholders) is proved to satisfy them; the examples use it.
`Cents` (fixed point, two decimals, rounding down) is a computable arithmetic used for examples and counterexamples.

### Integers
All samples are arrays of doubles, except in C91 and C96.  numpy keeps the type of an array, and `get_cvi` converts nothing.  In two methods integers meet only integers:
`cSIL._param_inc` (`np.inner(sample, sample)`, and the elements of `_CP`, a Python list that keeps types) and `rCIP._param_batch` (`np.transpose(subset) @ subset`).
`Gen/Typed.lean` models these two with types: 64-bit integers with wrap-around (`wrap`), floats, and numpy's rule that a mixed operation is computed in floats.
That in all other statements a sample meets an array of floats (`np.vstack` with `_v`, a difference with a centroid, a factor `1 / n`, `np.mean`) is by inspection.
Not modelled: other integer types.  Narrower ones (`uint8`) wrap in the same two places, and earlier; numpy may then raise OverflowError for `n * np.uint8`.

### Single precision
`Gen/Single.lean` models samples given as arrays of `float32` to incremental XB, DB, GD43, GD53 and PS.  There only `(1 / n_new) * sample` has no operand of double precision
(a Python float times a `float32` array is a `float32` array); a number carries where it comes from (`Origin`), and this one product is rounded to single precision (`mul32`).
That every other statement of these methods meets an array of doubles is by inspection.  Not modelled: CH and WB (their `_mu` stays in single precision throughout), cSIL (`np.inner(sample, sample)`),
rCIP, batches, half precision.

### Programs
`Py σ α = σ → Res σ α` with `Res = ok a s | err e s`: a method that changes an object and may raise.
What was changed before the `raise` stays changed; properties C03–C05, C08, C10, C46–C48 depend on that.
Python `/` on ints raises ZeroDivisionError, numpy `/` does not; both occur in the code and are kept apart.
Arrays are lists with their shape.  Broadcasting, shape errors, out-of-range indices, `append` on an ndarray (AttributeError), attributes removed by
`del`, and negative indices (compat) raise what Python and numpy raise.

### Objects
`Obj = {labelMap, core}`; `core` has all attributes of the nine classes.  A class never reads an attribute that only another one has.
`getCvi M data label` follows `get_cvi` statement by statement; `M` is the class.

### The text itself
C97 (incremental mode) and C98 (batch mode and any sequence of calls) remove most of the hand translation from the trusted base.  `tools/embed.py` parses `/repo/src/cvi/modules/*.py` with Python's own parser and
writes every statement of every method as a syntax tree (`Source/Text.lean`; docstrings, annotations, decorators and error messages are dropped, anything not foreseen stops the program).
`Source/Interp.lean` says what the trees mean, over any arithmetic `F`: an interpreter for expressions, assignments, `if`, `for`, comprehensions, calls of methods, and the thirty-six numpy and
builtin functions that occur.  `runStream K I S` constructs an object and calls `get_cvi` for each sample of `S`.
* `Laws F` (a class of equations): Python evaluates `1 / n`, `1 - 1 / n`, `(n - k) / (k - 1)` in steps, where `Arith` has one operation for each; the class says that these agree.  It holds for the reals, for binary64 with
  any library, and for the small arithmetic of the examples (`Source/Instances.lean`).  `LitLaws K` does the same for `-0.5`, `10.0 ** (-12.0 / dim)` and `1 / np.sqrt((2 * np.pi) ** dim)` of rCIP.
* `blank I s`: the memory in which `__init__` runs; the attributes of class `I` hold anything.
* `Same`: same value and object, or the same exception class.  `Agree`: same value and object, or both raise.  For cSIL and rCIP only `Agree` is proved, because when two
  statements would raise for different reasons the model may evaluate them in another order than the text.
* Local variables hold values, not references; the header of `Interp.lean` says why this is enough.
* C98 is about rectangular matrices (`Sound`), as numpy's are.  In batch mode only rCIP needs `Agree`.  An exception inside a loop may leave another object in the text than in the model; the sequence of calls ends there.

C99 does the same for the older interface.  `tools/embed_v0.py` writes the functions and methods of `compat/v0.py` as syntax trees (`Old/Text.lean`; `iCVI` and `Clusters.from_list` are left out),
`Old/Interp.lean` runs them over `XR`.
* A number (`Nm`) is an int or a float, plain or numpy's.  `m / n` raises ZeroDivisionError if both are plain and `n` is 0; otherwise the rules of `XR` apply.  Sums, products and `np.maximum` say which kind they return.
* An object is a record with one field per attribute (`XBo`, `PSo`, …); reading an attribute that no method assigns raises AttributeError; assigning a value of a kind that never occurs is `stuck` (AssertionError, which the
  model never raises, so the theorems show it does not happen).
* `Good` is what holds of every object between calls: the lists have one entry per cluster, and what is needed to know that no plain division by zero occurs.
* Lists and arrays are values: no method of these six classes changes an array in place that anything else refers to (`self.d[i, j] = …` and `self.M[i, j] = …` write to the object's own array).
* A stream of C99 ends at the first exception.  C101 goes on with the object it left: the simulation (`SimS`) relates objects after exceptions too.  In `iXB` they may differ in the entries of `min_v_i` (`Near`), because
  the model does not record a half-finished minimum; the entry is set before it is read again.

C100 adds `iSIL` (`Old/SIL.lean`) and `Cluster` (`Old/Cluster.lean`), where objects after exceptions agree too (`SimS`).
* The caller's arrays are numbered (`heap`).  `self.g` holds the numbers of arrays, so that `self.g[c] += x` writes to the caller's array; every other attribute holds values.  The call's argument is array number `cur`;
  a local variable `x` holds the value that array has at the start of the call.  The text reads `x` for the last time before or in the statement that writes to the array.
* The statement that fills `self.sij` entry by entry leaves the matrix half filled when an entry raises.  With arrays of one length (`Uni d`) none raises, so sessions are about such arrays.
* Not covered: `Clusters.from_list`, `iCVI`, `norm_ord` other than 2, `within_bounding_box` on an object without a box.

### Simplifications
* Labels are integers, except in C95: `Model/AnyLabel.lean` models incremental mode with labels of any type (only equality of dict keys matters).  In batch mode labels of other types are not modelled.
* `np.linalg.det`/`inv` are Mathlib's exact `det` and `⁻¹`; with non-finite entries all results are `nan`; `inv` raises LinAlgError exactly for determinant 0.
* Where a Python loop fills a matrix entry by entry and one entry raises, the entries written before it are not recorded
  (`Py.lean` `fillUpper`, `Compat` `SIL.loop`, `XB.update`).  No theorem speaks about a state left by such a failure except through attributes that
  the loop does not write.
* An empty 2-D array keeps its number of columns, as in numpy.
* Arguments of the wrong *type* (lists instead of arrays, floats as labels) are outside the model.
* `compat` methods store the caller's arrays by reference.  This is modelled for `iSIL` only, the one class that writes to them;
  for the others the caller is assumed not to write to arrays it has passed.
* `iDB.update` after the statement that always raises is not modelled.  `iSIL.s_ij_new_cluster` is never called and not modelled.
* `iPS` passes a generator to `np.sum` (v0.py:390), deprecated in numpy, which falls back to Python's `sum`; modelled as a sum.
* Assertions are enabled (no `-O`), except in C40, which is about `-OO`.

## 2. Specification

`Spec.lean`, `SpecDegenerate.lean`, `SpecCSIL.lean`, `Compat/Spec.lean`, `Compat/SpecCH.lean`, `Compat/SpecSIL.lean` do not refer to the model.
A data set is `S : List ((Fin d → ℝ) × ℤ)`.  Clusters, sizes, centroids, scatters and the nine indices are written as in the literature the
classes cite, with `Finset` sums, `sInf`, `sSup`, `Matrix.det`.
`ratio a b` is `a/b`, or `inf`/`nan` for `b = 0`: the specification says what is to happen on degenerate data instead of leaving it open.
`Api.lean` defines what a user can observe: `incRun`, `batchRun`, `objAfter`, `after`; `SpecMissing.lean` the same for samples with missing features, which are presented as NaN.

## 3. Properties

Statements in `properties.jsonl`; theorem names in `MANIFEST.json`; theorems in `Verif/Props/*.lean`, each with an `example` that meets its
hypotheses on a concrete, non-trivial case.  Helper lemmas are in `Verif/Proofs/` and `Verif/Compat/`.

| id | how it is proved |
|----|----------|
| C01 | invariant over all lookup sequences |
| C02 | simulation between a stream and its renamed stream; arbitrary arrays, so errors correspond too |
| C03–C05, C07, C39 | case analysis for every state; C05 by the invariant "some update happened → `_is_setup`" |
| C09, C11–C18, C26, C34, C35, C57 | refinement: after the stream `S` the object *represents* `S` (`Refines`, `Rep`), for every `S` |
| C19 | batch as above; incremental: the exact value returned, and a counterexample |
| C20, C22, C28, C58 | outcome of a batch for *every* label vector |
| C21–C25, C27, C29–C33, C52–C56 | algebra over the specification, carried over to the code by C11–C20 |
| C36 | a world with caller buffers; simulation with the run in which every call gets a copy |
| C06, C08, C10, C37, C38, C59 | what exactly happens on misuse, for every state or history |
| C60 | a relation `⊑` ("NaN or the same") between the run on samples with missing values and the run on every completion |
| C61 | the tables as functions of the missing feature are not constant, so the relation `⊑` forces NaN into them; the NaN is followed through `_evaluate` |
| C62–C67, C70–C72 | refinement as for C11–C20, over an arbitrary arithmetic |
| C68, C69 | forward error analysis: induction over the samples of one cluster.  For C69: with exact other operations the update of `CP` and `G` is exact for *whatever* centroid is recorded, so the errors of the centroid do not enter; what remains is one step of rounding errors per sample |
| C73 | every operation of binary64 is shown to have the error the standard model allows; inner products by induction over the way they are computed (`DotOf`) |
| C75, C76 | C68 and C69 bound the tables; errors of sums, quotients, square roots, minima and maxima are propagated to the value; `Spec.value` of the real data set is the reference |
| C77 | the remaining operations of binary64; sums by induction over the way they are computed (`SumOf`) |
| C78, C79 | everything after the tables is shared with C75-C77: `Tables`, `IsTable`, `IsQuotients` say what is needed of them, and the batch tables satisfy it too; the value then comes from C70 |
| C80 | rules for sign bits (`Signs`, `BatchSigns`: laws an arithmetic may have), proved for binary64 with any order of summation and applied to the expressions of C70; the kernel evaluates the counterexample |
| C81–C83 | the tables of C78 followed through the exponentials of PS and the matrix of cSIL; absolute errors, because the terms of the sums may cancel |
| C84 | the recurrence of the covariance is exact for whatever centroids are recorded if the other operations are exact; one step of rounding errors per sample |
| C85 | perturbation theory of positive definite matrices (`Gen/Perturb.lean`, no norms: quadratic forms and entries): determinant, inverse and exponent of a matrix near the exact one (`Gen/OverlapReal.lean`); then the rounding errors of the expression itself (`Gen/RoundingOverlap.lean`), and the sum over pairs of clusters |
| C86 | rules for values that are not finite (`Specials`), proved for binary64: a sum or product with such a term is not finite again, `0 * inf`, `inf - inf`, `inf / inf` are NaN; followed through the expressions of C62 and C70. The kernel evaluates the counterexample |
| C87 | the refinement of C62 gives the sizes of the tables; the other attributes by a frame argument over the statements of each method |
| C88 | the tables of C69 followed through the entries of the matrix and the coefficients of cSIL; a small calculus (`Approx`) carries error and size of each intermediate number, in multiples of `γ N` and `d M^2` |
| C89 | C77, C79, C82, C83, C85 for both data sets; the conditions carry over because similar data sets have proportional squared distances (`Similar`); the kernel evaluates the example where bits differ |
| C90 | C62 and C70 reduce the claim to the formulas; `Reflect` lists what is used of an arithmetic (`Opp`: opposite up to the sign of zero; `Solid`: absorbs the sign of a zero added to it); `F64.reflect` proves it of binary64, for any `Plan` of summation. rCIP for all features reversed together (then the covariances are the same; with some reversed, `det` and `inv` of LAPACK see another matrix) |
| C91 | the typed methods are related to the untyped ones statement by statement, as long as no integer leaves the range (`IntExact`; the invariant bounds the elements of `_CP`); integers below `2^53` are exact in binary64 in every order of summation (`DotOf.int`); the kernel evaluates the counterexamples |
| C74 | the kernel evaluates the six classes in binary64 on a concrete stream; case analysis for CH |
| C92 | invariant of `iCH.update` (`CH.At`): the tables are those of the stream with each sample labelled 0 in a cluster of its own (`refile`); the between-group terms are those of the last prefix that refreshed them (`stale`) |
| C93 | invariant of `iSIL.update` (`SIL.At`): the tables are those of the stream with the first sample of each cluster twice (`doubled`); an entry of the matrix is that of the last prefix that computed it (`silEntry`); the first array of a cluster holds its sum |
| C94 | `Units` relates two arithmetics, with a dimension for each number (length, area, …); the formulas of C62 and C70 respect it (`Same.value`, `batch_value`).  Two instances: binary64 with flags against itself, scaled (`Track.scale`), and binary64 with flags against binary64 (`Track.forget`).  The kernel evaluates flags and counterexamples |
| C95 | simulation between the dict with keys of any type and the dict with integers; C62 for the values |
| C96 | `Units` between binary64 and binary64 with a flag for products that single precision changes; error bound of one product through the running mean (its weight `1 / n` cancels the growth); kernel evaluation for the counterexample |
| C97 | both sides run in step: the interpreter is unfolded by a set of rewrite rules (`pyrun`), statement by statement; loops that fill an array by induction (`Source/Loop.lean`, `Source/Fold.lean`); then induction over the stream, and C62 for the values |
| C98 | as C97; a loop that carries state is followed by the model's loop (`Follows`, `loop_each'`), with what is known of the clusters already done; induction over the calls; C70 for the values |
| C101 | as C100; loops of text and model step by step (`loop_forEach`) |
| C102 | C97 and C98 composed with C11–C19, C77–C83, C85 and C88; renaming of labels by induction (`feed_rename`).  The hypotheses of the binary64 parts are those of C77, C79, C82, C83 and C85, so `quads_close`, `quads_agree`, `quads_PS`, `quads_cSIL` and `C102_rCIP_corners` meet them |
| C100 | as C99, with the objects after exceptions in the simulation (`SimS`); the nested loop over a matrix by `fold_matrix` |
| C99 | as C97, with a simulation (`Sim`) between the record and the model's object; loops by induction with an invariant (`loop_run`) |
| C41–C51 | the older interface, class by class |

### Properties the code does not have
For these the theorem `…_false` proves the negation (with a concrete witness or for a whole family of inputs), and `…_partial` what remains true.

| id | what the code does |
|----|----|
| C06 | After a batch, DB, GD43, GD53, PS, rCIP accept single samples silently and number the labels afresh in order of arrival: the first new sample goes to cluster 0 whatever its label. CH, WB, XB, cSIL always raise. |
| C08 | A sample of the wrong length with a new label raises but leaves its label in the label map. The next new label then raises IndexError (seven classes) or is scattered over several clusters (CH, WB). |
| C10 | A batch that raises half-way leaves `_is_setup` set; the corrected batch is refused. |
| C19, C21, C23, C30, C52, C53 | Incremental cSIL: `cSIL.py:85-89` lacks a factor 2 and `139-144` uses the new `G` where the old one is meant. The values depend on arrival order and on the origin, and are unbounded below. |
| C20 | Batch loops compare with `range(n_clusters)`: labels that are not exactly `0..k-1` give NaN in all nine classes (PS: ZeroDivisionError if none is in range). |
| C36 | `self._mu = sample`: CH and WB are corrupted if the caller reuses the buffer of the first sample before the second call. |
| C37 | A one-element sample with a known label is broadcast to all features. |
| C38 | Fewer labels than rows: the surplus rows are ignored. Surplus labels outside `0..k-1` are ignored as well. |
| C40 | `_add_docs` adds to `None` under `python -OO`: the package cannot be imported. |
| C42 | `iPS.update` never assigns its output: always 0. |
| C43 | `iXB` keeps the least separation of the whole history. |
| C44 | `iCH` compares with the length of `self.clusters`, which stays empty: label 0 always opens a new cluster, label 1 fails unless there are two samples labelled 0. C92 says exactly what happens. |
| C45, C46 | `iGD43/53`, `iDB` raise on the second sample of any cluster. |
| C47 | `iSIL` raises while there is one cluster, counts first samples twice and writes to the caller's arrays. C93 says exactly which values result. |
| C58 | cSIL's `_CP` holds scatters after a batch and sums of squared norms after single samples. |
| C61 | Incremental GD53 never looks at the first sample of a cluster (`_CP` and `_D` of a new cluster are computed without it), so a NaN in the only sample of a cluster is ignored: samples 0, 2 in cluster 0 and NaN in cluster 1 give 1/3. The other eight classes, and GD53 in batch mode, return NaN. |
| C65 | In a rounding arithmetic the last value of CH, WB, cSIL depends on how the clusters were interleaved. |
| C67 | rCIP raises OverflowError from 387 features on, in both modes: `(2 * np.pi) ** dim` is a power of Python floats, not of numpy floats. |
| C74 | In binary64 the running mean of five samples 0.1 is not 0.1. Six equal samples in two clusters give CH 0.8, WB 10, XB 0.83, DB 1, GD43 3.6e16, GD53 0.42 instead of NaN. |
| C80 | In binary64 the incremental compactness can become negative, without overflow or underflow: five samples with first feature 2^87/3 and second features 3, 0, 4, 1, 2 give a compactness of about -2^-102 (it is 10). CH, WB, XB, GD43 then return negative numbers and GD53 -inf. |
| C86 | An infinite sample that is the only one of its cluster is invisible to incremental XB, DB, GD43, GD53: compactness 0, and its infinite distances are never the minimum (or make the quotient 0). With two clusters XB and DB return 0, the best value there is. Batches return NaN. |
| C91 | With arrays of 64-bit integers incremental cSIL and batch rCIP compute squares in 64-bit integers, which wrap around: samples 3037000500 and 0 in two clusters give cSIL -inf instead of 1. |
| C96 | Arrays of `float32` do not give the values of the same numbers as doubles: three samples 16777214 in one cluster and one 16777215 in another give XB 3/16 and DB 1/4 instead of 0, GD43 3 instead of inf, GD53 3/8 instead of NaN (all up to 1e-6). |
| C48 | `iXB`, `iCH`, `iDB` count a sample they reject. |
| C50 | `Cluster(box=True)`: the second point raises ("truth value of an array is ambiguous"). |
| C51 | `from_list` stores the class `Cluster` instead of an object; every non-empty input raises. |

## 4. Trusted base

* The kernel of Lean 4 and the axioms `propext`, `Classical.choice`, `Quot.sound`.  `#print axioms` of the theorems in the manifest:
  `C40_false` uses `propext` only, `C87_bound` `propext` and `Quot.sound`; every other one uses exactly these three.  No axioms of our own, no `sorry`, no `native_decide`, no `bv_decide`.
* Mathlib's definitions of `ℝ`, `exp`, `sqrt`, `Matrix.det`, `⁻¹`, `sInf`, `sSup`.
* That the model says what the Python text and numpy do.  This was checked by reading only: nothing could be run here.  For `__init__`, `_setup`, `_param_inc`, `_param_batch`, `_evaluate`, `get_cvi` and
  `get_internal_label`, C97 and C98 reduce this to `tools/embed.py` (one term per node of the parse tree) and `Source/Interp.lean` (the meaning of each operation, which uses the array operations of `Py.lean` and `Gen/Arith.lean`).
  The same holds of `compat/v0.py` with C99, C100 and C101, `tools/embed_v0.py` and `Old/Interp.lean`.
  C102 states the main results without the model: text on the left, definition on the right.  To believe it one needs the embedder, the interpreter, the array operations, the arithmetic and `Spec.lean`;
  of the files under `Model` only the record of attributes (`Core`, `Obj`) and the types of arguments in `Model/Base.lean` occur in the definitions of `runStream` and `runCalls`.
  The operations of `B64` and `mul32`, `to32` were compared with the floats of the machine on 13500 random and special operands (`tools/b64_cases.py`), without a difference.

## 5. Tests of the theorems against wrong programs

`seeded/LOG.jsonl`, one line per attempt: a definition of the model is replaced by a wrong one in a scratch copy, and the build has to fail.
`failed` lists the theorems at which it fails first, `claims` the manifest theorems that depend on them.
An edit that survives is either equivalent (the entry says why) or led to a stronger theorem (`tightened`).
A failed build shows that some proof no longer goes through, not by itself that its statement became false; for a few edits (marked in `description`, for instance two independent statements swapped) the edited program is equal to the original over the reals, or even equivalent.
Entries whose id begins with `txt-` or `v0t-` edit the Python text instead of a definition: the edited text is embedded again by `tools/embed.py` or `tools/embed_v0.py`, and the model stays as it is.
If the embedder refuses the edited text (`refused`), no theorem was tested and the entry counts as neither killed nor survived.
Entries whose id begins with `int-` or `oint-` edit an interpreter (`Source/Interp.lean`, `Old/Interp.lean`), which is part of the trusted base; they test that the comparison of text and model depends on it.
If the build stops at a lemma that merely restates the edited definition (`restated`), the claims were not tested and the entry counts as neither killed nor survived.
Ten of these were repeated with the lemma changed along with the definition (`-l`), and then failed at other theorems; the other twelve were found late, by a search for failures at lemmas proved by `rfl` alone, and were not repeated.
That search does not find restating lemmas with longer proofs, so a few further kills may be of this kind.
