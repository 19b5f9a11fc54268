# Formal model of CubeFlix/nn in Lean 4 — design

## 1. Trusted base

* Lean 4.33.0's kernel (the gate replays every module).
* Axioms. No axioms of our own, no `sorry`, no `native_decide`, no `bv_decide`. `#print axioms` on every theorem
  named in MANIFEST.json gives:
  * none: C01_newMatrix_rejects
  * `propext` only: C02_too_large, C03_upper_bounds_partial, C04_ragged_accepted_then_panics, C04_false,
    C09_other_axis_panics, C15_bad_size, C28_bad_width, C45_sgd_errs, C45_adam_errs, C45_sgd_new, C45_adam_new,
    C54_none, C57_forward, C57_backward, C71_optim, C79_init, C92_predict_empty
  * `propext`, `Quot.sound`: C03_negative_row_panics, C11_wrong_length, C28_constructors, C30_width, C40_draws,
    C48_width, C50_width, C77_panics, C77_noop, C78_prefix, C96_fuel, C114_deepEqual, C124_same, C124_room, C139_same,
    C146_dest
  * `propext`, `Classical.choice`, `Quot.sound`: all others.
* Mathlib (analysis, measure theory, tactics) — its theorems are kernel-checked too.
* The reading of the Go source: the code is not run; each model definition cites file and lines.
* What the model assumes of Go and its libraries is listed under "Simplifications" below.

## 2. The model (`lean/Verif/Model/`)

The model is an *imperative heap model*, because most of this package's surprises come from aliasing
(`RELU` overwrites its argument, `NewMatrixFromSlice` shares storage, `NewSavedModelData` copies
slice headers only...).

* `Go.lean`: `World α` — the mutable state: an allocation counter, backing arrays of `float64`
  (`flt`), backing arrays of `[]float64` (`outs`), layer objects, optimizer objects, two streams of
  random draws with positions, the log, and whether `InitLogger` ran. `Go α β` is a state monad over `World α`
  whose outcome is a value or a *panic*. `error` is an ordinary return value `Option Err`.
  Loops are `forN`/`foldN` (structural recursion on the iteration count, body run for 0,1,...,n-1).
* `Flt.lean`: `class Flt α` — the float64 operations the code uses, *without any laws*.
  Structural theorems are proved for every `Flt α`, hence in particular for IEEE-754 doubles whatever libm does.
  Analytic theorems use the instance on `ℝ` (exact arithmetic). A bit-level IEEE binary64 instance
  is used where the property is about NaN/infinity/rounding.
  Serialization uses `class FltBits` (8-byte image of a float64, with round-trip law).
* One file per Go file: `Matrix`, `Activation`, `Misc`, `Accuracy`, `Loss`, `Binomial`, `Network`,
  `Optimizers`, `ModelGo` (model.go), `LayerData`, `ModelData` (also nn.go).

### Simplifications (also stated at the definitions)

* A row (`[]float64`) is a reference to a whole array; two rows are either the same array or disjoint
  (the package never sub-slices a row). `[][]float64` headers have offset, length and capacity since
  `Fit` re-slices them.
* Go `int` is an unbounded `Int`; the conversions to int8/int32 in the serializer are modelled exactly. The bounds of the batches in
  Fit, where a parameter of the caller enters products, are also modelled with 64-bit integers that wrap around (`Model/FitInt64.lean`, C158).
* Memory exhaustion, stack depth and run time are not modelled: an allocation always succeeds. (C142 says how much memory loading asks
  for; LoadModel on forged sizes can ask for more than there is, C63 speaks of panics other than that.)
* The model does not fuse multiply-add. Go allows fusing `x*y + z`; its compiler does so on arm64, ppc64, s390x and riscv64 but not on
  amd64 (at the default GOAMD64 level). The theorems on `F64` are about the unfused operations, except C160:
  `Model/Fma.lean` models an inference pass (Dot, the layers, Forward, Predict) in which any of the steps of Dot may be fused.
* `map[string]float64` is an association list with distinct keys; `range` over it uses an iteration
  order given as an argument, and theorems quantify over all permutations.
* Random sources are arbitrary streams; theorems quantify over all streams. `rand.Shuffle` is the
  Fisher–Yates loop of the Go library with an arbitrary sequence of in-range draws.
* A file system is a map from names to byte strings; a crash leaves a prefix of the written bytes. `LoadFile` calls `Read` once:
  the theorems of C68/C69 assume it returns the whole file, C80 says what happens if it does not.
* Log lines are records (epoch, loss, accuracy) and errors constructors; `Model/Texts.lean` relates both to their texts, `Model/LogFile.lean`
  adds what %f prints for a float64, the prefix and time stamp of a logger, and where the loggers write (writing never fails there; a
  `log.Logger` drops the error).
* `Layers` and `Optimizers` of a `Model` are lists. Copies of a `Model` that share the array of their layers are modelled in
  `Model/Copies`; C128 says for which programs the list is right.
* Float semantics, four levels:
  * any `Flt α`, no laws: the theorem holds for whatever the operations do;
  * `FltInt`: integers up to 2^53 are exact (proved for ℝ and for the bit-level binary64);
  * `ℝ`: exact arithmetic, used for gradients, convergence, distributions. These theorems say nothing about rounding;
  * `F64` (`lean/Verif/IEEE`): IEEE-754 binary64 as bit patterns with round-to-nearest-even, subnormals, infinities, NaN.
    `+ - * /`, `sqrt`, comparisons and conversions are as IEEE requires. `exp`, `log` and `pow` are not fixed: every theorem on
    float64 holds for each library that meets the laws of the class `Libm` (`IEEE/F64.lean`): documented special cases, an error of at
    most one ulp for Exp and Log, Exp overflowing from 710 and underflowing up to -800, exact squares where they are float64 numbers.
    That Go's library meets them is trusted; `IEEE/Libm.lean` proves that correctly rounded functions do, so the laws are consistent.
    Monotony of Exp is not among the laws; the two statements that need it (C83, C84) have it as the hypothesis `ExpMono`. Operations return one canonical NaN. `int(x)` for x out of range is -2^63
    (amd64); Go leaves it open.

### Which code is modelled

Every function of the package is modelled (`lean/Verif/Model`, one file per Go file; nn.go is in `ModelData.lean`; `BinomialFull.lean` has
`binomial.Rand` for every N, `SetValues.lean` the methods `setValues` that the package never calls), except:

| code | why not |
|------|---------|
| `InitLogger`: opening and writing the log file | only its outcome (opened or not) is an argument of `initLogger`; the files are in `Model/LogFile.lean` (C146) |
| all `*_test.go` | `accuracy_test.go`, `layer_data_test.go`, `loss_test.go`, `matrix_test.go`, `misc_test.go`, `network_test.go` in `Model/Tests.lean` (C114-C118); `examples/sine_test.go`, `optimizers_test.go` in `Model/Examples.lean` (C104-C106); `examples/spiral_test.go`, `examples/iris_test.go`, `model_test.go`, `model_data_test.go` in `Model/ExamplesFit.lean` (C108-C110). A test returns its calls of `t.Error`; what it prints with `t.Logf` is returned, not formatted. Reading `iris.data` (encoding/csv with its defaults, `strconv.ParseFloat` for decimal numbers) and the file itself are in `Model/Csv.lean` (C147); C109 takes its records as arguments |

The package starts no goroutines and takes no locks. `Model/Conc.lean` models callers that use several goroutines: `Predict`, `CalculateLoss` and
`CalculateAccuracy` as programs of single memory accesses, interleaved in any order (C124). Accesses are sequentially consistent there, each goroutine
allocates from an address range of its own (no function depends on the value of an address), and reading the parameters of a layer object or writing
one matrix field of it is one access. Each of these programs, run alone, is proved equal to the function of the sequential model (`C124_same`).
`Model/ConcFit.lean` adds `Fit` (C139), for models without dropout layers: the stream of random numbers that dropout layers share is not modelled
concurrently.

## 3. Specifications

`IsMat w m r c A` — "in state `w` the matrix `m` is `r×c`, fully allocated, with entries `A i j`".
`Frame w w'` — "every array that existed in `w` is unchanged in `w'`".
Specs are plain functions `Nat → Nat → α` (entries), sums over `Finset.range`, `HasDerivAt` from Mathlib.

## 4. Plan per property

Execution lemmas turn each model function on well-formed arguments into an explicit final state
(`w.newMat r c V`: allocate a matrix with entries V; `w.setMat m r c V`: overwrite m's entries). Properties follow.

| id | how |
|----|-----|
| C01–C11 | execution lemmas for matrix.go; histories by induction; negative indices and ragged slices: the property is false of the code, negation proved + `_partial` |
| C12–C14, C17 | execution lemmas for in-place loops; real-analysis facts over ℝ |
| C15, C16 | RowMax scan invariant; C16 false for rows without positive entry: negation + `_partial` |
| C18 | Fisher–Yates loop invariant: result is input composed with one permutation |
| C19, C20 | counting loop = `List.countP`; C20 false for the binary accuracy: negation + `_partial` |
| C21–C27 | loss loops; `HasDerivAt`; C21, C23, C27 false in general: negation + `_partial` |
| C28, C29 | case analysis |
| C30, C31 | execution lemmas for forward passes; model forward is a fold of row-wise functions |
| C32–C36 | vector-Jacobian product along arbitrary differentiable curves |
| C37 | false: negation (shape, values, clobbered input); `_partial` names what holds |
| C38 | two-point measure on [0,1): volume of {u : kept} = 1-Dropout; integral of output |
| C39 | false for Dropout>0: backward is (1-Dropout) times the gradient; negation + `_partial` |
| C40 | loop lemma with stream position |
| C41–C43 | induction over the gradient list; C43 false (Beta1 used for the cache): negation + `_partial` |
| C44 | false (plain SGD panics): negation + `_partial` |
| C45–C47 | case analysis, induction over AddLayer histories; C47 false: negation + `_partial` |
| C48–C50 | induction over layers |
| C51 | induction over layers with the curve formulation; false for mean absolute error with more than one output: negation + `_partial` |
| C52 | arithmetic of the batch bounds |
| C53 | frame argument; false with a sigmoid first layer: negation + `_partial` |
| C54–C57 | loop splitting; C57 false: negation + `_partial` |
| C58, C59, C61–C66 | byte-level parser/printer; C60, C63 false: negation + `_partial` |
| C67 | false: negation with a concrete history |
| C68, C69 | file map model; C69 false: negation |
| C70, C71 | invariant of the batch loop (`FitRun`): every batch is one `TrainStep`; C71 chains constructors, AddLayer, Finalize, InitLayers, Fit |
| C72, C73 | first-order Taylor argument; contraction of the least-squares iteration, over ℝ |
| C74 | counting: every permutation comes from the same number of draw sequences |
| C75 | the layout of LayerData.md/ModelData.md written as an independent predicate (`Spec/Format`) |
| C76 | two worlds with the same content, any addresses (`Spec/Same`); resuming is false: negation + `_partial` |
| C77, C78, C80 | false: negation + what happens instead |
| C79 | case analysis |
| C81, C82 | execution lemmas of Forward and the losses; invariant of the epoch loop with the log as ghost output |
| C83–C87 | rounding is monotone (`IEEE/Round`), the laws of `Libm` for exp and log; exact facts at the ends of the range; C84, C85, C87 false: negation + `_partial` |
| C88–C91 | NaN facts of each operation; induction over batches (`Descent`) and over layers; C88, C89 false: negation + `_partial` |
| C92 | the first batch panics: execution lemmas up to the panic |
| C93 | zero weights are a fixed point: induction over batches (`Descent`) and, within a batch, over layers from the back |
| C94 | case analysis on NaN, infinities and zeros of float64; induction over batches |
| C95 | execution; integers up to 2^53 survive the way through a float64 |
| C96 | the unbounded rejection loops take fuel, more fuel gives the same result; the event is a disjoint union over the sets of successes |
| C97–C99 | the standard model of rounding with underflow (`IEEE/Error`), induction over the sum; Lipschitz bounds of the activations; induction over the layers |
| C100 | back-propagation works row by row, and a sum over the rows is invariant under a permutation; induction over the run; the float64 counterexample by 2^60 + 1 = 2^60 |
| C101 | the back-propagated gradients of two equal units are equal term by term, so one step keeps them equal; induction over the run; any arithmetic |
| C102 | RELU passes no gradient where the pre-activation is not positive, and an optimizer with zero state ignores a zero gradient; induction over the run |
| C103 | invariant (first moment)² ≤ K · (second moment) by (a+b)² ≤ a²/λ + b²/(1-λ); sum over the batches |
| C104 | step of the hand-written loop = training step of a model that exists only in the proof; loop invariant over epochs and batches |
| C105 | same; outputs of softmax on float64 are NaN or in [0, 1], so the clipping of the loss is neutral (also C84_range) |
| C106 | both runs are gradient descent from the same fresh network (C71, C104, C105); determinism of gradient descent (C76) |
| C107 | the trained model is finalized and its layers are saveable, so the file round trip applies (C59, C68, C71); losses, accuracies and predictions depend on the entries of the outputs only (C81) |
| C108 | the loops write row after row of a pair of fresh matrices (`DataPair`), one random number per row; sine and cosine are arguments; rounding is monotone, so a product of numbers of size at most 1 rounds to one |
| C109 | each program is the data set it builds, `makeLayers`, `exampleModel` and one call of Fit (C82 for the run, C33 for the shuffle); with no records NewMatrix returns the empty matrix, on which the first forward pass fails |
| C110 | the model made by `exampleModel` is `Ready` and its layers saveable, so C59 and C68 apply; the loss depends on the entries only (C107); forward and backward as in C51 for any number type |
| C111–C113 | gradient descent on softmax regression over ℝ (`Real/SoftmaxRegression`): the log-sum-exp lies between its linearisation and that plus a square, so a step decreases the cross-entropy and the distance to any competitor pays for the rest; separable data: scale the separating weights |
| C114–C118 | the test files as programs (`Lemmas/Tests*`): the function specifications give the entries of every matrix; whole numbers up to 2^53 are exact in float64, the decimal constants are within 10^-9 of their value, which decides every comparison in the tests |
| C119–C121 | the incremental gradient method in a real inner product space (`Real/Incremental`): a pass over the batches differs from a full gradient step by terms that are summable for steps 1/(1+dt), so the value converges and its limit is the infimum; the cross-entropies of the batches are convex with bounded, Lipschitz-continuous gradients (`Real/SoftmaxBatches`) |
| C122 | steps with a common zero (`Real/Interpolation`): each step takes at least 2·rate·(batch error) off the squared distance to the exact fit, and the batch errors during an epoch bound the error at its start |
| C123 | rounds of each method as an inductive relation on the draws, written without the model; both directions by induction; on float64 the bound of the count N is NaN or +Inf |
| C124 | each goroutine writes only what it allocated itself (a safety judgement on programs of single accesses); then every schedule is simulated by the private runs, with a count of the accesses left |
| C125 | sums of ReLU units interpolate a function of one linear form, sums of steep sigmoid units follow it in steps (`Real/Universal`); the exponentials of linear forms span an algebra, so Stone-Weierstrass gives all continuous functions; the parameters are put into the model by a client program (`Spec/Params`) |
| C126 | C125's sums for the indicator functions of the classes, which are continuous on their union; softmax keeps the order of its inputs |
| C127 | affine layers keep a0 + a3 = a1 + a2, and the order of softmax and sigmoid outputs is that of their inputs; the exclusive-or by a single linear layer is a computation with RowMax |
| C128 | slices with array, length and capacity; simulation of list models by slices under the invariant that sharing variables are kin, and a computation of the two `append` calls |
| C129, C130 | gradient descent with momentum over ℝ (`Real/HeavyBall`): objective plus β/(2·rate) times the squared velocity decreases, and the point x + β/(1-β)·v does plain gradient descent; their combination is a potential that pays for the gap to any competitor. The velocity is bounded because the gradient of the cross-entropy is |
| C131 | the log lines of the model carry the stage they name; `FitCall.Fails` says which call of Fit returned the error, in which state it ended, and that only the line was added since; refuted for the backward pass (targets of the wrong width) |
| C132 | texts in `Model/Texts`; no beginning of a text is the beginning of another one (checked by the kernel on the table of the 23 errors and 8 lines), %d is injective and prints no comma |
| C133 | two or more outputs: all gradients are 0 by C23, so by induction over the batches nothing moves; one output: `Descent.plain` and the subgradient method of `Real/AbsDev` |
| C134 | the residual of one sample is multiplied by a constant in every epoch (`resid_step`); limits of powers |
| C135 | back-propagation is linear in the gradient at the predictions and works row by row (`netGrad_copies`); `Compensates` says how an optimizer absorbs a factor; refuted for the squared error |
| C136 | `TiedTask`: places may hold the same layer object; `FwdRun.memo` for the last place of each object; `tied_updateLayers` adds up the steps; `NetGrad.exact` along a curve that moves a parameter at all its places; refuted by a ReLU unit applied twice |
| C137 | `Spec/Session`: calls, answers and the situation a program can influence; one lemma per call (`call_run`), induction over the program; `Reply.Lasts` keeps returned matrices apart from the memory of the layers; simulation between programs with and without the calls that only look |
| C138 | `Spec/Renumber`; every step of a run commutes with a permutation of the units because sums do (`trainStep_renum`), then induction with `trainStep_same`; float64 counterexample as in C100 |
| C139 | the safety judgement of C124 for regions of memory (`Lemmas/ConcFitSafe`: `Fit` reads the data and its own model, writes its own parameters, layers, optimizers and the log), and the simulation of every schedule by private runs (`Lemmas/ConcPool`); for the limit, runs up to the first write to shared memory |
| C140 | Fit is a function of parameters and velocities (C70 and the comparison of two runs, where the counter of an optimizer without decay does not matter), and there are finitely many of them: pigeonhole. The counter of updates is unbounded in the model; in the code it wraps after 2^63 updates, which SGD without decay does not notice |
| C141 | CalculateAccuracy is a mean over the rows of a score between 0 and 1 (C81), Hoeffding's inequality of Mathlib for the mean; after training a union bound over the 2^(64 P) values of the parameters. "Probability" is the measure of the set of outcomes, an outer measure where the set is not measurable. The samples are an assumption: nothing says that the data of a real program are independent samples |
| C142 | `floats` counts the numbers in all arrays allocated so far (`Spec/Memory`); every step of a loader is charged: bytes allocated ≤ bytes read + credit, the credits of a layer add up to 0 when it is complete. Only arrays of float64 are counted, not the arrays of row headers, objects, or the buffer itself, and memory is never given back. The forged files are run step by step |
| C143 | One constant per layer (activation constant times the largest absolute column sum), multiplied over the layers; softmax is the sigmoid of the distance to the log-sum-exp of the others, hence 1/2. The float64 version adds the rounding error of C99 |
| C144 | Running error analysis as a second instance of the float interface: `Iv` carries an exact number, a bound and the condition under which it holds (`Spec/ErrBound`). Two facts about the same `Descent`: it is mapped to the real one by forgetting the bounds (`Lemmas/FltHom`, for any map that respects the operations), and float64 stays within the bounds as long as every comparison is certain (`Lemmas/ErrOps`, `Lemmas/ErrRun`). The accuracy of math.Pow is a hypothesis (`PowAcc`), met by the correctly rounded power |
| C145 | The objective as a function of one vector of parameters, with every ReLU replaced by the factor of its side: a smooth function (`Real/Smooth`), equal to the objective and to its gradient as long as no unit changes sides (`Real/Stationary`). Then the usual descent argument on a ball, where the derivative is Lipschitz. That the parameters stay in the ball and the units on their sides is a hypothesis for long trainings (`ParamsIn`, `SameSides` in `Spec/Descend`) and proved for short ones; sigmoid layers (which are not differentiated correctly, C37) and the other two losses are left out |
| C146 | Lines with prefix and time stamp form a prefix code: numerals end at the first character that is no digit, texts at the newline, and a version has five bytes. %f by the distance of `roundEven` |
| C147 | Induction over the lines of the file and the fields of a record; numerals by the digits read one after the other; the records of `iris.data` compared with the table line by line; then C109 |
| C148 | Induction over the steps of gradient descent (`descent_keeps`): a linear quantity to which no gradient contributes is kept by SGD, its velocity included. The gradients are sums over samples of input times gradient, and the gradients at a softmax layer add up to 0. For Adam a computed counterexample with one sample |
| C149 | The same induction, for any arithmetic: equal columns (rows) of parameters and optimizer state give equal outputs, equal gradients and equal updates, since all sums run in the same order. For dropout a computed counterexample |
| C150 | Work on the law of an infinite sequence of draws (`Measure.infinitePi`). The signal after q layers depends on the draws of these layers only, so that it is independent of the next layer's. Fresh draws have mean 0 and variance 1, which gives the mean square of a pre-activation; flipping the signs of all later draws changes nothing in law but the sign of the pre-activation, and act(z)² + act(-z)² = gain·z². Induction on the depth, then transport along the joint law of the source. Ties: a draw of an atomless law cancels an independent quantity with probability 0. The draws are assumed independent: each Go layer seeds its own generator with the time, which the model's single stream of draws does not show |
| C151 | The backward loop with an invariant saying which matrices of activations have been overwritten (`Spec/SigBackprop`, `Lemmas/SigBackprop`): the exact steps of training for square sigmoid layers. For others, the loop down to the last uneven one, where SigmoidPrime goes out of range, or its input gradient fails to multiply and the ignored error leaves a 0 x 0 matrix. Then induction over the steps: GᵀG is symmetric and positive semidefinite. Not covered: a square sigmoid layer in first place (it also overwrites the data, C53_false) |
| C152 | The bits of the mask are independent with mean 1-d (C38), the predictions are linear in them, so first and second moments suffice; the gradients at the dropout layer are a bit times an error, and everything below is linear in them with fixed coefficients. The objective and its partial derivatives are stated without the model (`dropObj`, `dropW`, `dropB`, `dropH`). Not covered: dropout before a softmax layer, or more than one dropout layer, where the mean is not a polynomial of low degree |
| C153 | Positive homogeneity of the activations, layer by layer. For the balance: pre-activation times gradient is output times gradient (times 1-d), summed over the samples this is parameters times their gradients on both sides of the unit; then a step of SGD, and induction over the batches, naming the network after each batch by `Descent` of a prefix |
| C154 | `Spec/File.lean` writes the accepted files down as byte strings. The pure parser of `Lemmas/Parse.lean`, which LoadModel follows, reads each of them; conversely every step of the parser is inverted (a padded short read is never followed by a successful one). The float type enters only through `toBits (ofBits b) = b`, which holds for `F64` by definition (`f64_bits`). Saving is C75 |
| C155 | `Spec/Axes.lean`: (AQ)(QᵀW) = AW by orthonormality, (AQ)ᵀG = Qᵀ(AᵀG), and a step of SGD is linear, so a training step commutes with the change of coordinates; induction over the batches, with C76 for the entries outside the matrices. Adam divides each coordinate by its own gradient: a step computed for one sample refutes the claim |
| C156 | `Real/Nearest.lean`: the distance to every exact solution never grows (C122), so a subsequence converges, to an exact solution, and then the whole sequence; every gradient is orthogonal to what does not show in the data, which gives Pythagoras' law in the limit. The link to Fit is that of C122 |
| C157 | `Real/NearestRate.lean`: a difference orthogonal to all that does not show in the data shows in proportion to its length (finite dimension), so the error of one epoch, which bounds the fall of the squared distance (C122), is a multiple of that distance. The link to Fit is that of C122 |
| C158 | `Model/FitInt64.lean`: Fit with every sum and product of the batch bounds reduced modulo 2^64. A batch size above the number of samples gives one batch, whose bound is the batch size itself; otherwise no number exceeds twice the number of samples. Rounding to float64 is monotone, so Min picks the number of samples. Negative sizes: C77 |
| C159 | `Real/NoisyLimit.lean`: the difference of two runs is a run for outputs 0, which can be fitted exactly by 0, so C122 and C157 apply to it; a run and the same run one epoch later approach each other geometrically, hence the run is Cauchy. The link to Fit is that of C122 |
| C160 | `Model/Fma.lean`: the inference pass with a parameter saying which steps of Dot are fused. `Lemmas/Fma.lean`: one rounding instead of two keeps the bound of `dot_err` (induction over the sum, any mixture of steps); from there on the proofs of C98 and C99, which only use that bound. With no step fused the two programs are equal by computation. The difference of builds: -2^1022 + 4 * 2^1022 |
| C161 | A mean cross-entropy below log(1 + exp(-M)) / r forces all margins above M (one term of the sum, two terms of the log-sum-exp); by C112 any level is reached for good. Bounded weights and biases bound the margins, and the margins of two samples of different classes added up contain no bias. With M = 0 the same lemma shows that a loss below log 2 / r makes the data separable. The distance from the start: the inequality behind C111, with the start as the point of comparison |
| C162 | `Real/SoftmaxLimit.lean`: if the coefficients come back below a bound again and again, a subsequence has a limit (compactness), which is best by the bound of C111 and continuity. The distance to best coefficients never grows, so if there are any the run is bounded, and it tends to the limit of the subsequence. If there are none, no bound is met again and again |
| C163 | `Real/SoftmaxExists.lean`: coefficients that break the overlap decrease the cross-entropy strictly when added to any others. Conversely the cross-entropy is a function of the margins, which form a subspace of finite dimension; with overlap every unit vector in it has a negative margin, so by compactness margins of bounded loss are bounded and the loss has a minimum. Then C162 |
| C164 | `Real/SoftmaxUnique.lean`: the gradient at best coefficients is 0 (one step of C111 cannot decrease the loss); the first-order estimate of log-sum-exp is exact only for a change that is the same in all classes, so two best sets of coefficients give the same probabilities. With the limit of C162 and continuity this is the limit of the predictions |
| C165 | every epoch decreases the cross-entropy by half the rate times the squared gradient (C111), and the cross-entropy is not negative, so the gradient tends to 0; its entries for the biases and weights are the differences in the statement |
| C166 | two best sets of coefficients differ by ones that score each sample the same in all classes (C164); every gradient is orthogonal to those, hence so is the way from the start to the limit of C162: Pythagoras' law |

## 5. Where the code does not do what one would expect

Each line is proved about the model (the theorem in brackets) and comes from reading the code at the cited place.

* `Get`/`Set` with a negative index panic (C03_false, matrix.go:80-105).
* `NewMatrixFromSlice` accepts ragged slices (C04_false, matrix.go:60-77).
* `RowMax` returns 0 for rows without a positive entry (C16_false, misc.go:35-56).
* `BinaryCategoricalAccuracy` overwrites the predictions (C20_false); so do the cross-entropy losses outside [0,1] (C27).
* Mean squared and mean absolute loss use only the first sample (C21_false, C23_forward_false, loss.go:54-78, 131-155).
* The mean absolute gradient is 0 for more than one output: integer division (C23_backward_zero, loss.go:158-188).
* `LeakyLayer` with slope 0 has a wrong gradient (C34_false).
* `SigmoidLayer.Backward` uses the layer input instead of the output, overwrites it, and may panic (C37_false).
* A model with a sigmoid layer cannot be trained: `Fit` panics or fails unless the layer is square (C151_panics, C151_error, C151_first), and then the
  weights move along GᵀG, so that no diagonal weight can ever grow (C151_fit, C151_quadratic, C151_adam).
* `DropoutLayer.Backward` lacks the factor 1/(1-Dropout) (C39_false), so that all layers up to it learn more slowly by the factor 1-Dropout than the
  layer after it (C152_step).
* Adam corrects the second moment with Beta1 (C43_false, optimizers.go:256-257).
* Plain SGD panics on gradients that are too narrow (C44_false).
* A failed `Finalize` may leave a changed model (C47_false).
* Training a model whose first layer is a sigmoid overwrites the training data (C53_false).
* Errors before `InitLogger` panic (C57_false, C61_false, C63_no_logger, C68_false).
* More than 127 layers are saved without error and never restored (C60_false).
* A negative key length in a file panics (C63_panics).
* `NewSavedModelData` is not a snapshot (C67_false); `SaveFile` truncates the old file before it serializes (C69_false).
* Momentum is not saved, so training cannot be resumed from a file (C76_false).
* A negative batch size panics or does nothing (C77); surplus inputs are ignored, missing ones are found only when training gets there (C78).
* `LoadFile` ignores how many bytes `Read` returned (C80_false).
* `Softmax` does not subtract the maximum: NaN for entries from 710 up or rows at most -800 (C84_false).
* Binary cross-entropy is NaN for predictions that are right and certain (C85_false); the cross-entropy gradient is NaN at predictions
  that are 0 (C87_false).
* The dropout rate 1 is accepted and makes every training output NaN (C88_false, network.go:704-715).
* No constructor rejects NaN (C89_false); NaN parameters stay NaN (C90) and `Predict` answers class 0 or 1 without an error (C91_predict).
* `Fit` on a model without layers or without `Finalize`, or after a later `AddLayer`, panics instead of returning an error (C92).
* Nothing warns of a forgotten `InitLayers`; a model of two or more layers then learns a constant (C93_client).
* `binomial.Rand` does not check P: with P = NaN and N >= 25 it loops forever (C96). Not reachable in the package, which has N = 1.
* `NewAdamOptimizer` does not check epsilon, beta1 and beta2; beta1 = 1 or epsilon = 0 make NaN (C94).
* A failing backward pass is logged as "Failed to perform forward pass" (C131_false, C131_backward, model.go:248).
* Training on the mean absolute error with two or more outputs changes no parameter (C133_frozen, C133_false, loss.go:171-181).
* The squared and the absolute error are not averaged over the samples in the gradient, but the cross-entropies are: repeating the data multiplies the step (C135_false, loss.go:81-104).
* Two copies of a `Model` that both get another layer may end up with the same last layer, without an error (C128_copies, model.go:90).
* A ReLU layer that is added twice is trained with a wrong gradient: both backward steps use the outputs of its last place (C136_false, network.go:111, 131).
* `LoadModel` believes the sizes in a file before it reads a number: 57 bytes make it allocate up to 32 EiB (C142_false, layer_data.go:167-170).
* `LoadModel` looks at no optimizer name or number, slope, dropout rate, weight or number of inputs; it takes settings that the constructors refuse, and saving again silently drops unknown names and fills in 0 for missing ones (C154_load, C154_only, model_data.go:177-347).
* `TestIris` passes on a data file that cannot be parsed: it tests `err` instead of `err2` (C147_unnoticed, examples/iris_test.go:33).
* `binomial.NewSource` (binomial.go:32-34) has a value receiver: it sets the source of a copy. The dropout layer calls it before each
  training pass (network.go:789) without effect, so masks come from the global source of golang.org/x/exp/rand (a remark on the model, not a theorem).

## 6. Tests of the theorems (`seeded/LOG.jsonl`)

Each line is one edit of the model in a scratch copy and a rebuild. "theorems_failed" are the theorems of MANIFEST.json whose proofs depend
on a declaration that no longer checks. In the first batches modules that import a failed module were not checked, so their lists
may be too short; in later ones failing proofs are cut out (in the scratch copy) until everything else has been checked.
