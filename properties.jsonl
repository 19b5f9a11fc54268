{"id": "C01", "title": "NewMatrix accepts exactly the positive dimensions and gives private zeroed storage", "statement": "NewMatrix(rows, cols) returns an error and the zero Matrix exactly when rows < 1 or cols < 1; otherwise it returns a Matrix with those Rows and Cols, every entry 0, whose storage is disjoint from all storage that existed before and whose rows do not share storage with each other.", "quantifier": "all integers rows, cols and all heap states", "why_tests_cant": "infinitely many dimensions, and freedom from aliasing is a statement about every other live matrix", "anchors": ["matrix.go:NewMatrix"]}
{"id": "C02", "title": "Set then Get is a faithful memory", "statement": "On any matrix whose rows do not share storage, after Set(i,j,v) succeeds Get(i,j) returns v, Get of any other in-range position returns what it returned before, and no other matrix with disjoint storage changes. Set/Get with row >= Rows or col >= Cols return an error and change nothing. Any history of Set calls reads back like a table updated by those calls.", "quantifier": "all matrices, all in-range and too-large indices, all values, all finite histories of Set calls", "why_tests_cant": "the histories are unbounded and a dropped or misdirected write shows only on particular index pairs", "anchors": ["matrix.go:Get", "matrix.go:Set"]}
{"id": "C03", "title": "Out-of-range indices are reported as errors, never as a panic", "statement": "Get, Set, GetRow, GetColumn, SetRow, SetColumn called with an index outside the matrix return an error value and do not panic.", "quantifier": "all matrices and all integer indices, including negative ones", "why_tests_cant": "requires every index value; the failing ones (negative) are absent from the tests", "anchors": ["matrix.go:Get", "matrix.go:Set", "matrix.go:GetRow", "matrix.go:GetColumn", "matrix.go:SetRow", "matrix.go:SetColumn"]}
{"id": "C04", "title": "NewMatrixFromSlice only accepts rectangular data", "statement": "If NewMatrixFromSlice returns no error then every row has Cols entries, so that every position (i,j) with i < Rows, j < Cols can be read. The matrix shares storage with the slice passed in (writes through either are visible through the other).", "quantifier": "all slices of slices, including ragged ones", "why_tests_cant": "quantifies over all shapes of ragged input", "anchors": ["matrix.go:NewMatrixFromSlice"]}
{"id": "C05", "title": "Element-wise arithmetic is exact pointwise, fresh, and leaves operands alone", "statement": "Add, Sub, Neg, AddScalar, MulScalar, PowScalar on well-formed matrices return a matrix of the same size whose entry (i,j) is the float64 operation applied to the operands' entries (i,j); the result occupies new storage and no storage that existed before changes. This holds also when the two operands are the same matrix or share rows.", "quantifier": "all well-formed operands of any size, all scalars, any float64 semantics", "why_tests_cant": "all sizes and all aliasing patterns between operands", "anchors": ["matrix.go:Add", "matrix.go:Sub", "matrix.go:Neg", "matrix.go:AddScalar", "matrix.go:MulScalar", "matrix.go:PowScalar"]}
{"id": "C06", "title": "Add, Sub and Dot reject exactly the incompatible shapes", "statement": "Add and Sub return an error exactly when Rows or Cols differ; Dot returns an error exactly when m.Cols != b.Rows; in the error case the zero Matrix is returned and no storage changes; in the other case there is no panic.", "quantifier": "all pairs of well-formed matrices", "why_tests_cant": "all pairs of shapes", "anchors": ["matrix.go:Add", "matrix.go:Sub", "matrix.go:Dot"]}
{"id": "C07", "title": "Dot is the matrix product", "statement": "m.Dot(b) has shape m.Rows x b.Cols and entry (i,j) is the left-to-right sum from 0 of m[i][n]*b[n][j]; over the reals this is the mathematical matrix product, hence associative, distributive over Add, and (A.B)^T = B^T.A^T.", "quantifier": "all compatible well-formed matrices of any size", "why_tests_cant": "all sizes and entries; algebraic laws quantify over triples of matrices", "anchors": ["matrix.go:Dot"]}
{"id": "C08", "title": "Transpose swaps indices, is its own inverse and never aliases its argument", "statement": "m.T() has shape Cols x Rows with T[j][i] = m[i][j] bit for bit; m.T().T() has exactly the entries of m; the result shares no storage with m (although it is built from GetRow, which does share).", "quantifier": "all well-formed matrices", "why_tests_cant": "all sizes; absence of aliasing", "anchors": ["matrix.go:T", "matrix.go:GetRow", "matrix.go:SetColumn"]}
{"id": "C09", "title": "Sum adds along the requested axis only", "statement": "Sum(0) is the 1 x Cols matrix of column sums, Sum(1) is the 1 x Rows matrix of row sums (in order, from 0); any other axis panics; over the reals both have the same grand total.", "quantifier": "all well-formed matrices and all integer axes", "why_tests_cant": "all sizes and entries", "anchors": ["matrix.go:Sum"]}
{"id": "C10", "title": "Equals decides equality of shape and entries", "statement": "m.Equals(b) returns true exactly when shapes agree and every pair of entries compares equal with float64 ==; it never panics on well-formed matrices and changes nothing; over the reals it is an equivalence relation.", "quantifier": "all pairs of well-formed matrices", "why_tests_cant": "a missed position shows only on inputs that differ just there", "anchors": ["matrix.go:Equals"]}
{"id": "C11", "title": "Row accessors share storage, column accessors copy", "statement": "GetRow(i) returns the matrix's own row storage and SetRow(i,v) installs v itself (later writes to v are visible in the matrix), while GetColumn(j) returns a new slice with the column's values and SetColumn copies v into the matrix; each changes only the addressed row or column; SetRow and SetColumn reject slices of the wrong length without any change.", "quantifier": "all well-formed matrices, indices and slices", "why_tests_cant": "aliasing is visible only through later writes, over all later histories", "anchors": ["matrix.go:GetRow", "matrix.go:GetColumn", "matrix.go:SetRow", "matrix.go:SetColumn"]}
{"id": "C12", "title": "Clip forces every entry into [0,1] and is idempotent", "statement": "After Clip(X) every entry that was negative is 1e-7, every entry above 1 is 1-1e-7, all others are unchanged; entries end in [0,1]; Clip twice equals Clip once. Clip works in place: the argument's storage holds the clipped values.", "quantifier": "all well-formed matrices with unshared rows", "why_tests_cant": "all entry values", "anchors": ["matrix.go:Clip"]}
{"id": "C13", "title": "Activations act pointwise in place", "statement": "RELU, LeakyRELU and Sigmoid overwrite each entry x of their argument with max(x,0), (x<0 ? x*slope : x), 1/(1+exp(-x)) respectively, return the same matrix, and touch no storage other than the argument's rows. Over the reals RELU output is >= 0 and idempotent, Sigmoid output lies strictly between 0 and 1 and is strictly increasing.", "quantifier": "all well-formed matrices with unshared rows, all slopes", "why_tests_cant": "all sizes and entries", "anchors": ["activation.go:RELU", "activation.go:LeakyRELU", "activation.go:Sigmoid"]}
{"id": "C14", "title": "Softmax returns probability rows that preserve order", "statement": "Over the reals, after Softmax(m) each row is strictly positive and sums to 1, entry order within the row is preserved (x_j < x_k iff p_j < p_k), and adding a constant to a row does not change its result; rows are processed independently.", "quantifier": "all well-formed matrices of any size", "why_tests_cant": "all sizes and real entries", "anchors": ["activation.go:Softmax"]}
{"id": "C15", "title": "SparseToOneHot and RowMax are inverse encodings", "statement": "For size >= 1 and class labels that are integers in [0,size), SparseToOneHot gives a Rows x size matrix whose row i is 1 at the label and 0 elsewhere, and RowMax of it gives the labels back. size <= 0 is an error; a label outside [0,size) panics.", "quantifier": "all label columns, all sizes", "why_tests_cant": "all label vectors", "anchors": ["misc.go:SparseToOneHot", "misc.go:RowMax"]}
{"id": "C16", "title": "RowMax returns the index of the largest entry of each row", "statement": "RowMax(X)[i][0] is an index j with X[i][j] >= X[i][k] for all k (the first such j).", "quantifier": "all well-formed matrices, including rows with no positive entry", "why_tests_cant": "the violation needs rows without positive entries, which the tests never use", "anchors": ["misc.go:RowMax"]}
{"id": "C17", "title": "OutputBinaryValues thresholds at 0.5 in place and is idempotent", "statement": "Every entry becomes 0 if it was < 0.5 and 1 otherwise, in the argument's own storage; applying it again changes nothing (over the reals).", "quantifier": "all well-formed matrices with unshared rows", "why_tests_cant": "all entries", "anchors": ["misc.go:OutputBinaryValues"]}
{"id": "C18", "title": "ShuffleDataset permutes samples and labels together", "statement": "For every outcome of the random source, ShuffleDataset(X,Y) reorders the rows of X and of Y by one and the same permutation: no sample is lost, duplicated, modified or separated from its label.", "quantifier": "all matrices X, Y with the same number of rows and separate storage, all random outcomes", "why_tests_cant": "all random outcomes and all sizes", "anchors": ["misc.go:ShuffleDataset"]}
{"id": "C19", "title": "Accuracy functions return the exact fraction of correct positions in [0,1]", "statement": "RegressionAccuracy is (number of entries with |yHat-Y| < precision)/(Rows*Cols); CategoricalAccuracy is (number of rows whose RowMax column holds a 1 in Y)/Rows; BinaryCategoricalAccuracy is (number of entries whose thresholded prediction equals Y)/(Rows*Cols). Over the reals each is in [0,1], and is 1 iff every position is correct.", "quantifier": "all well-formed equally-sized prediction/target pairs", "why_tests_cant": "all sizes and values", "anchors": ["accuracy.go:RegressionAccuracy", "accuracy.go:CategoricalAccuracy", "accuracy.go:BinaryCategoricalAccuracy"]}
{"id": "C20", "title": "Computing an accuracy does not modify predictions or targets", "statement": "RegressionAccuracy, CategoricalAccuracy and BinaryCategoricalAccuracy leave the contents of yHat and Y as they were.", "quantifier": "all well-formed inputs", "why_tests_cant": "a side effect is visible only through later reads of the same storage", "anchors": ["accuracy.go:RegressionAccuracy", "accuracy.go:CategoricalAccuracy", "accuracy.go:BinaryCategoricalAccuracy", "misc.go:OutputBinaryValues"]}
{"id": "C21", "title": "Mean squared loss is the mean over all samples and outputs", "statement": "MeanSquaredLoss.Forward(yhat,y) returns the mean of (yhat-y)^2 over all rows and columns.", "quantifier": "all well-formed pairs with Size columns, any number of rows", "why_tests_cant": "the tests only use one row; the claim is about every batch size", "anchors": ["loss.go:MeanSquaredLoss.Forward"]}
{"id": "C22", "title": "Mean squared loss gradient matches a loss", "statement": "MeanSquaredLoss.Backward(yhat,y)[i][j] is the partial derivative with respect to yhat[i][j] of the sum over samples of the per-sample mean squared error.", "quantifier": "all well-formed pairs, any batch size and output size", "why_tests_cant": "a derivative is a limit over all perturbations", "anchors": ["loss.go:MeanSquaredLoss.Backward"]}
{"id": "C23", "title": "Mean absolute loss and its gradient agree", "statement": "MeanAbsoluteLoss.Forward is the mean of |yhat-y|, and MeanAbsoluteLoss.Backward[i][j] is its partial derivative sign(yhat-y)/Size for every Size.", "quantifier": "all well-formed pairs, all sizes", "why_tests_cant": "the error depends on Size and is invisible for Size = 1; tests only log the gradient", "anchors": ["loss.go:MeanAbsoluteLoss.Forward", "loss.go:MeanAbsoluteLoss.Backward"]}
{"id": "C24", "title": "Cross-entropy loss value", "statement": "For predictions in [0,1] and one-hot targets CrossEntropyLoss.Forward is the mean over rows of -log(probability of the true class); it is >= 0 whenever these probabilities are positive.", "quantifier": "all well-formed pairs with Size columns and equal row counts", "why_tests_cant": "all sizes and real entries", "anchors": ["loss.go:CrossEntropyLoss.Forward", "matrix.go:Clip"]}
{"id": "C25", "title": "Cross-entropy gradient is the derivative of the cross-entropy loss", "statement": "For predictions strictly inside (0,1) and one-hot targets, CrossEntropyLoss.Backward[i][j] is the partial derivative of CrossEntropyLoss.Forward with respect to yhat[i][j].", "quantifier": "all well-formed pairs, any batch size", "why_tests_cant": "a derivative is a limit over all perturbations", "anchors": ["loss.go:CrossEntropyLoss.Backward"]}
{"id": "C26", "title": "Binary cross-entropy gradient is the derivative of the binary cross-entropy loss", "statement": "For predictions strictly inside (0,1), BinaryCrossEntropyLoss.Backward[i][j] is the partial derivative of BinaryCrossEntropyLoss.Forward with respect to yhat[i][j].", "quantifier": "all well-formed pairs, any batch size, any targets", "why_tests_cant": "a derivative is a limit over all perturbations", "anchors": ["loss.go:BinaryCrossEntropyLoss.Forward", "loss.go:BinaryCrossEntropyLoss.Backward"]}
{"id": "C27", "title": "Evaluating a loss does not modify the predictions or targets", "statement": "Forward and Backward of every loss leave yhat and y as they were.", "quantifier": "all losses, all well-formed inputs", "why_tests_cant": "side effects are visible only through later reads of shared storage", "anchors": ["loss.go:Forward", "loss.go:Backward", "matrix.go:Clip"]}
{"id": "C28", "title": "Losses reject wrong widths without side effects", "statement": "Every loss's Forward and Backward return an error, and change no storage, whenever yhat.Cols or y.Cols differs from Size; loss constructors accept exactly size >= 1.", "quantifier": "all four losses, all shapes", "why_tests_cant": "all pairs of shapes", "anchors": ["loss.go"]}
{"id": "C29", "title": "Layer constructors accept exactly the valid parameters", "statement": "Each layer constructor returns an error exactly for inputSize < 1, outputSize < 1, a negative slope (leaky) or a dropout outside [0,1]; otherwise it returns a layer with zero weights of shape inputs x outputs and zero biases 1 x outputs in storage not shared with anything else.", "quantifier": "all integer sizes, all slopes and dropouts", "why_tests_cant": "all parameters; freedom from aliasing", "anchors": ["network.go:NewLayer", "network.go:NewLinearLayer", "network.go:NewSigmoidLayer", "network.go:NewLeakyLayer", "network.go:NewSoftmaxLayer", "network.go:NewDropoutLayer"]}
{"id": "C30", "title": "Layer forward pass computes act(XW+b) and leaves inputs and parameters alone", "statement": "For every layer type, Forward(x) with x.Cols = InputSize succeeds, returns a Rows x OutputSize matrix in new storage with entries act(sum_n x[i][n]*W[n][j] + b[j]), and does not change x, the weights, the biases or any other existing storage; with x.Cols != InputSize it returns an error and changes nothing.", "quantifier": "all layers with well-formed parameters, all inputs of any batch size", "why_tests_cant": "all sizes, all values, and the absence of side effects", "anchors": ["network.go:Forward", "network.go:ForwardNoDropout"]}
{"id": "C31", "title": "Batch invariance of prediction", "statement": "Row i of the model's inference output on a batch X depends only on row i of X: it equals, bit for bit, the output for the one-row matrix holding that row. Hence batch splitting, reordering or padding does not change predictions.", "quantifier": "all models built from valid layers, all batches, any float64 semantics", "why_tests_cant": "all batches and all models", "anchors": ["model.go:Forward", "model.go:Predict", "network.go"]}
{"id": "C32", "title": "Linear layer backward is the exact gradient", "statement": "LinearLayer.Backward(x,d) returns dWeights, dBiases, dInputs such that for every differentiable perturbation of x, W, b the derivative of sum d[i][j]*Forward(x)[i][j] is the inner product of the perturbation with the returned gradients.", "quantifier": "all well-formed layers, inputs, upstream gradients and differentiable perturbations", "why_tests_cant": "a derivative is a limit over all perturbations; tests only log", "anchors": ["network.go:LinearLayer.Backward"]}
{"id": "C33", "title": "Hidden (RELU) layer backward is the exact gradient", "statement": "HiddenLayer.Backward(x,d) called after Forward(x) returns the exact gradients (as for the linear layer) wherever no pre-activation is exactly 0.", "quantifier": "all well-formed layers, inputs, upstream gradients, perturbations", "why_tests_cant": "the layer stores its activation in place of its pre-activation; correctness must hold for every sign pattern", "anchors": ["network.go:HiddenLayer.Backward", "activation.go:RELUPrime"]}
{"id": "C34", "title": "Leaky RELU layer backward is the exact gradient", "statement": "LeakyLayer.Backward(x,d) called after Forward(x) returns the exact gradients for every slope the constructor accepts (slope >= 0), wherever no pre-activation is exactly 0.", "quantifier": "all accepted slopes, layers, inputs, perturbations", "why_tests_cant": "fails only for slope = 0, a single boundary value", "anchors": ["network.go:LeakyLayer.Backward", "activation.go:LeakyRELUPrime"]}
{"id": "C35", "title": "Softmax layer backward is the exact gradient", "statement": "SoftmaxLayer.Backward(x,d) called after Forward(x) returns the exact gradients of sum d*softmax(xW+b).", "quantifier": "all well-formed layers, inputs, upstream gradients, perturbations", "why_tests_cant": "Jacobian of a vector function at every point", "anchors": ["network.go:SoftmaxLayer.Backward"]}
{"id": "C36", "title": "Fused softmax/cross-entropy backward equals the two-step backward", "statement": "For one-hot targets, SoftmaxLayer.BackwardCrossEntropy(x,y,out) returns the same gradients as SoftmaxLayer.Backward(x, CrossEntropyLoss.Backward(out,y)) after Forward.", "quantifier": "all well-formed layers, inputs, one-hot targets", "why_tests_cant": "equality for all real inputs and sizes", "anchors": ["network.go:SoftmaxLayer.BackwardCrossEntropy", "loss.go:CrossEntropyLoss.Backward"]}
{"id": "C37", "title": "Sigmoid layer backward is the exact gradient and does not disturb its inputs", "statement": "SigmoidLayer.Backward(x,d) returns gradients of the shapes of weights, biases and inputs equal to the derivatives of sum d*sigmoid(xW+b), and does not modify x.", "quantifier": "all well-formed layers, inputs, upstream gradients", "why_tests_cant": "tests only log the result; the failure depends on shapes and values", "anchors": ["network.go:SigmoidLayer.Backward", "activation.go:SigmoidPrime"]}
{"id": "C38", "title": "Dropout keeps each unit with probability 1 - Dropout and preserves the expectation", "statement": "In training each mask entry is 0 or 1; with a uniform source it is 1 with probability exactly 1-Dropout; kept activations are scaled by 1/(1-Dropout), dropped ones are 0, so for Dropout < 1 the expected output equals the inference output. In inference no mask is applied and no randomness is consumed.", "quantifier": "all dropout values in [0,1), all random outcomes", "why_tests_cant": "a statement about a probability distribution", "anchors": ["network.go:DropoutLayer.Forward", "network.go:DropoutLayer.ForwardNoDropout", "binomial.go:Rand"]}
{"id": "C39", "title": "Dropout layer backward is the gradient of the sampled forward pass", "statement": "DropoutLayer.Backward(x,d) after Forward(x) returns the exact gradients of sum d*Forward(x) with the sampled mask held fixed.", "quantifier": "all dropout values, masks, inputs", "why_tests_cant": "the missing scale factor is only visible for Dropout > 0 by comparing with a derivative", "anchors": ["network.go:DropoutLayer.Backward"]}
{"id": "C40", "title": "Init randomises exactly the weights", "statement": "Init overwrites each weight with a fresh normal draw times sqrt(2/InputSize), consumes InputSize*OutputSize draws, and leaves biases, sizes and all other storage unchanged.", "quantifier": "all layers, all random outcomes", "why_tests_cant": "all sizes and random outcomes", "anchors": ["network.go:Init", "model.go:InitLayers"]}
{"id": "C41", "title": "SGD follows its update rule over any history", "statement": "After any sequence of updates with gradients g_0..g_{k-1} (no momentum), each weight equals w_0 - sum_t rate_t*g_t with rate_t = LearningRate/(1+Decay*t); biases likewise; gradients are not modified. A zero gradient leaves the parameters unchanged.", "quantifier": "all initial parameters, all finite gradient sequences, all rates and decays", "why_tests_cant": "histories are unbounded; an off-by-one in the decay schedule accumulates", "anchors": ["optimizers.go:SGDOptimizer.Update"]}
{"id": "C42", "title": "SGD with momentum follows its velocity recurrence over any history", "statement": "With Momentum mu the t-th update adds v_t = mu*v_{t-1} - rate_t*g_t (v_{-1} = 0) to the parameters, for every history; the velocity is kept per optimizer and starts at zero.", "quantifier": "all finite gradient sequences", "why_tests_cant": "histories are unbounded", "anchors": ["optimizers.go:SGDOptimizer.Update"]}
{"id": "C43", "title": "Adam follows the published bias-corrected update", "statement": "The t-th Adam update changes each parameter by -rate_t * (m_t/(1-Beta1^t)) / (sqrt(v_t/(1-Beta2^t)) + Epsilon) where m_t, v_t are the exponential averages of gradient and squared gradient.", "quantifier": "all finite gradient sequences and parameters", "why_tests_cant": "differs from the tests only in size of the step, over all histories", "anchors": ["optimizers.go:AdamOptimizer.Update"]}
{"id": "C44", "title": "A rejected optimizer update changes no parameter", "statement": "If Update returns an error the weights and biases are unchanged; Update never panics on well-formed weights, biases and gradients of any shape.", "quantifier": "all shapes of parameters and gradients, both optimizers, momentum on or off", "why_tests_cant": "all shape combinations", "anchors": ["optimizers.go:SGDOptimizer.Update", "optimizers.go:AdamOptimizer.Update"]}
{"id": "C45", "title": "Optimizer constructors validate and NewOptimizerFromType starts afresh", "statement": "NewSGDOptimizer errs exactly when learningRate <= 0 or decay < 0 or momentum < 0; NewAdamOptimizer exactly when learningRate <= 0 or decay < 0; NewOptimizerFromType(type, values of an optimizer) gives an optimizer with the same hyper-parameters, zero iterations and no accumulated state, and errs exactly for unknown types.", "quantifier": "all parameter values and type codes", "why_tests_cant": "all values", "anchors": ["optimizers.go:NewSGDOptimizer", "optimizers.go:NewAdamOptimizer", "optimizers.go:NewOptimizerFromType"]}
{"id": "C46", "title": "Model building keeps layers chained and failed AddLayer is a no-op", "statement": "In every history of AddLayer calls on a NewModel, ModelSize is the number of accepted layers, InputSize/OutputSize are those of the first/last accepted layer, each accepted layer's inputs equal the previous one's outputs, and a rejected AddLayer leaves the model unchanged.", "quantifier": "all finite histories of AddLayer calls with arbitrary layers", "why_tests_cant": "histories are unbounded", "anchors": ["model.go:NewModel", "model.go:AddLayer"]}
{"id": "C47", "title": "A failed Finalize leaves the model unchanged", "statement": "If Finalize returns an error the model is as before; if it succeeds the model has one fresh optimizer per layer with the given hyper-parameters, the given loss, accuracy type and precision, and the loss size equals the output size.", "quantifier": "all models, losses, optimizers, accuracy settings", "why_tests_cant": "the partially updated state on the error path is not examined by tests", "anchors": ["model.go:Finalize"]}
{"id": "C48", "title": "Forward on a built model succeeds for every input of the right width", "statement": "On every model obtained by NewModel and successful AddLayer calls of constructed layers, Forward(X, training) with X.Cols = InputSize returns no error, does not panic and returns ModelSize+1 matrices: X itself and then each layer's output with X.Rows rows; with X.Cols != InputSize (and at least one layer) it returns an error and changes nothing.", "quantifier": "all built models, all batches, training or not, all random outcomes", "why_tests_cant": "all models of any depth", "anchors": ["model.go:Forward", "model.go:AddLayer"]}
{"id": "C49", "title": "Prediction is read-only and repeatable", "statement": "Predict, CalculateLoss and CalculateAccuracy on a built model (at least one layer) change no weight, bias, input or target and no other pre-existing storage; any interleaving of such calls returns the same Predict result for the same X every time.", "quantifier": "all built models, all finite histories of read-only calls", "why_tests_cant": "histories are unbounded; the code overwrites many buffers in place", "anchors": ["model.go:Predict", "model.go:CalculateLoss", "model.go:CalculateAccuracy"]}
{"id": "C50", "title": "Predict decodes the raw output according to the accuracy type", "statement": "Predict returns the raw output for regression, RowMax of it for categorical, the 0/1 threshold of it for binary, and an error for any other accuracy type.", "quantifier": "all built models, inputs and accuracy types", "why_tests_cant": "all inputs", "anchors": ["model.go:Predict"]}
{"id": "C51", "title": "Backpropagation through the whole model gives the exact gradient of the loss", "statement": "For every model built from linear, hidden, leaky (slope > 0) and softmax layers, after Forward the list returned by Backward holds, in reverse layer order, the exact partial derivatives of the training objective with respect to each layer's weights and biases, wherever no pre-activation is 0.", "quantifier": "all depths, layer kinds, batches, targets", "why_tests_cant": "chain rule over arbitrary depth; tests only check absence of errors", "anchors": ["model.go:Backward", "network.go"]}
{"id": "C52", "title": "Fit trains on every sample exactly once per epoch, in order", "statement": "For batchSize >= 1 the batches used in an epoch are consecutive non-empty blocks of at most batchSize rows whose concatenation is exactly the dataset; batchSize 0 uses the whole dataset as one batch; X and Y batches cover the same row range.", "quantifier": "all dataset sizes and batch sizes", "why_tests_cant": "boundary arithmetic over all pairs (rows, batchSize)", "anchors": ["model.go:Fit"]}
{"id": "C53", "title": "Fit does not modify the training data", "statement": "After Fit returns, X, Y, xVal and yVal hold the values they held before.", "quantifier": "all built models, datasets, epochs and batch sizes", "why_tests_cant": "the violation depends on the layer kinds; effects appear only after training", "anchors": ["model.go:Fit", "network.go:SigmoidLayer.Backward", "activation.go:SigmoidPrime"]}
{"id": "C54", "title": "Training for a+b epochs equals training for a epochs and then b epochs", "statement": "With logging off, Fit(a+b epochs) has exactly the same effect as Fit(a epochs) followed by Fit(b epochs): optimizer state persists between calls. epochs <= 0 is a no-op.", "quantifier": "all models, data, a, b >= 0, random outcomes", "why_tests_cant": "equality of all reachable states", "anchors": ["model.go:Fit"]}
{"id": "C55", "title": "Fit keeps the model well-formed", "statement": "If Fit returns without error, layer sizes, weight and bias shapes, ModelSize and the layer chain are unchanged, so Forward still succeeds on every input of the right width; only entries of weights and biases change.", "quantifier": "all built models and datasets", "why_tests_cant": "all models and histories", "anchors": ["model.go:Fit", "optimizers.go"]}
{"id": "C56", "title": "Fit logs exactly the requested epochs", "statement": "With logEvery = k != 0, a successful Fit writes one training line for exactly the epochs e in [0,epochs) divisible by k, plus one validation line for each of them iff yVal is non-empty; with logEvery = 0 nothing is logged.", "quantifier": "all epochs and logEvery (also negative)", "why_tests_cant": "all epoch counts", "anchors": ["model.go:Fit"]}
{"id": "C57", "title": "Errors before InitLogger are returned as errors", "statement": "Fit reports a failing forward/backward/update step as an error value, also when InitLogger has not been called.", "quantifier": "all failing inputs, logger initialised or not", "why_tests_cant": "needs the uninitialised-logger state, which the tests never use on an error path", "anchors": ["model.go:Fit", "nn.go:InitLogger"]}
{"id": "C58", "title": "Layer save/load round-trip", "statement": "For every layer with consistent shapes and sizes below 2^31, SerializeLayer succeeds and LoadLayer on the bytes (followed by any other bytes) returns a layer of the same kind, sizes, slope/dropout and bit-identical weights and biases, leaving exactly the following bytes unread.", "quantifier": "all layers, all float64 bit patterns, all trailing bytes", "why_tests_cant": "all bit patterns and sizes", "anchors": ["layer_data.go:SerializeLayer", "layer_data.go:LoadLayer", "layer_data.go:NewSavedLayerData"]}
{"id": "C59", "title": "Model save/load round-trip", "statement": "For every built and finalized model with at most 127 layers and sizes below 2^31, for every iteration order of the optimizer-value map, LoadModel(Serialize(NewSavedModelData(m))) succeeds and returns a model with equal ModelSize, InputSize, OutputSize, loss, accuracy settings, optimizer type and values, and layers with bit-identical parameters; hence Predict agrees on every input.", "quantifier": "all such models, all map iteration orders", "why_tests_cant": "all models and all iteration orders", "anchors": ["model_data.go:Serialize", "model_data.go:LoadModel", "model_data.go:NewSavedModelData"]}
{"id": "C60", "title": "Every finalized model can be saved and loaded, whatever its depth", "statement": "Serialize followed by LoadModel returns the model also for more than 127 layers, or reports an error when saving.", "quantifier": "all depths", "why_tests_cant": "needs models deeper than any test", "anchors": ["model_data.go:Serialize", "ModelData.md"]}
{"id": "C61", "title": "Truncated files are rejected", "statement": "For every saved model and every strict prefix of its bytes, LoadModel returns an error (it neither panics nor returns a model).", "quantifier": "all models, all map orders, all truncation points", "why_tests_cant": "all crash points", "anchors": ["model_data.go:loadModelBuffer", "layer_data.go:loadLayerBuffer"]}
{"id": "C62", "title": "Foreign data is rejected, other versions are only warned about", "statement": "LoadModel returns an error on every input not starting with NNML and LoadLayer on every input not starting with LA; with an initialised logger, a version string different from VERSION does not by itself cause failure.", "quantifier": "all byte strings", "why_tests_cant": "all byte strings", "anchors": ["model_data.go:loadModelBuffer", "layer_data.go:loadLayerBuffer"]}
{"id": "C63", "title": "LoadModel never panics", "statement": "On every byte string LoadModel returns a model or an error.", "quantifier": "all byte strings, logger initialised or not", "why_tests_cant": "all byte strings", "anchors": ["model_data.go:loadModelBuffer"]}
{"id": "C64", "title": "Whatever LoadModel accepts is a usable model", "statement": "If LoadModel returns no error on any byte string, the model satisfies the same invariants as one built through the API: chained layers with consistent parameter shapes, loss size equal to output size, one optimizer per layer; so Forward succeeds on every input of the right width.", "quantifier": "all byte strings", "why_tests_cant": "adversarial inputs are infinite", "anchors": ["model_data.go:LoadModel", "model.go:AddLayer", "model.go:Finalize"]}
{"id": "C65", "title": "Saved data has the documented length", "statement": "A serialized layer has 27 + 8*(inputs*outputs + outputs) bytes and a serialized model 4+5+1+4+4+1+1+8+1+1 bytes plus (1+len(key)+8) per optimizer value plus its layers.", "quantifier": "all layers and models with consistent shapes", "why_tests_cant": "all sizes", "anchors": ["LayerData.md", "ModelData.md", "layer_data.go:SerializeLayer", "model_data.go:Serialize"]}
{"id": "C66", "title": "Saving a layer with inconsistent shapes is refused and writes nothing", "statement": "SerializeLayer returns an error and leaves the buffer untouched exactly when the weight matrix is not Inputs x Outputs or the bias matrix is not 1 x Outputs.", "quantifier": "all saved-layer records", "why_tests_cant": "all shape combinations", "anchors": ["layer_data.go:SerializeLayer"]}
{"id": "C67", "title": "NewSavedModelData is a snapshot", "statement": "The data returned by NewSavedModelData(m) keeps the parameters m had at that time, whatever is done to m afterwards.", "quantifier": "all models and later histories", "why_tests_cant": "aliasing is visible only through later updates", "anchors": ["model_data.go:NewSavedModelData", "layer_data.go:NewSavedLayerData"]}
{"id": "C68", "title": "SaveFile/LoadFile round-trip and crash behaviour", "statement": "After SaveFile(m,f) returns nil LoadFile(f) yields the model. If the process dies at any point during SaveFile, or SaveFile returns an error, LoadFile(f) afterwards yields either the old content's model, the new model, or an error, never a different model.", "quantifier": "all models, all old file contents, all crash points (prefix of the written bytes)", "why_tests_cant": "all crash points", "anchors": ["model_data.go:SaveFile", "model_data.go:LoadFile"]}
{"id": "C69", "title": "A failed SaveFile keeps the previous file", "statement": "If SaveFile returns an error because the model cannot be serialized, the file that was there before is still there.", "quantifier": "all models, all previous contents", "why_tests_cant": "needs a failing serialization over an existing file", "anchors": ["model_data.go:SaveFile"]}
{"id": "C70", "title": "Fit is gradient descent over the batches", "statement": "With logging off, on a finalized model without sigmoid layers whose loss has the size of the last layer and with data of the right shapes, Fit returns no error and performs, per epoch and per consecutive block of rows, one training-mode forward pass, one back-propagation and one optimizer step per layer, in that order; data and everything else but parameters, layer memory, optimizer state and the random source are unchanged.", "quantifier": "all models, losses, optimizers, datasets, epoch counts, batch sizes, random sources", "why_tests_cant": "unbounded epochs, batches, layers and parameter values", "anchors": ["model.go:Fit", "model.go:Backward", "model.go:Forward"]}
{"id": "C71", "title": "From constructors to a trained model", "statement": "A program that creates layers with the constructors, adds them to a new model, calls InitLayers and Finalize, and then Fit gets an error exactly if a layer has invalid arguments or does not fit its predecessor, there is no layer, the loss does not have the size of the last layer, or the precision is negative. Without an error it ends with the network that gradient descent reaches from the initial one (weights normal draws times sqrt(2/inputs), zero biases), and nothing that existed before has changed but the random sources.", "quantifier": "all layer lists, sizes, losses, optimizers, datasets, epoch counts, batch sizes, random sources", "why_tests_cant": "composes all constructors and Fit over unbounded layers, sizes and parameter values", "anchors": ["model.go:AddLayer", "model.go:InitLayers", "model.go:Finalize", "model.go:Fit", "network.go"]}
{"id": "C72", "title": "A small enough training step decreases the loss", "statement": "In exact arithmetic, for a model of linear, ReLU, leaky ReLU and softmax layers whose objective is differentiable at its predictions with a gradient that is not zero, there is a positive bound such that Fit with plain SGD on the whole data set for one epoch strictly decreases the objective for every learning rate below the bound. The absolute error of several outputs is excepted: with it plain SGD never changes a parameter.", "quantifier": "all networks, losses, datasets; all learning rates below the bound", "why_tests_cant": "a statement about all small learning rates over real numbers", "anchors": ["model.go:Fit", "model.go:Backward", "loss.go", "optimizers.go:SGDOptimizer"]}
{"id": "C73", "title": "Linear regression converges to the least-squares error", "statement": "In exact arithmetic, training a model with one linear layer by plain SGD on the squared error over the whole data set, with a learning rate of at most 1/((2/c)*sum_i(1+|x_i|^2)), never ends with a larger error than it started with, and after t epochs the error exceeds that of any weights and biases by at most their squared distance from the initial ones over 2*rate*t; so it tends to the least possible error.", "quantifier": "all input and output widths, data sets, initial parameters, epoch counts", "why_tests_cant": "a limit over unboundedly many epochs, for all data sets", "anchors": ["model.go:Fit", "model.go:Backward", "optimizers.go:SGDOptimizer.Update", "network.go:LinearLayer"]}
{"id": "C74", "title": "ShuffleDataset is unbiased", "statement": "For every permutation of the rows there is exactly one sequence of random numbers (the i-th in 0..i) with which ShuffleDataset orders the rows in that way; there are r! such sequences, so each order is equally likely.", "quantifier": "all numbers of rows, all permutations", "why_tests_cant": "a statement about all r! outcomes for every r", "anchors": ["misc.go:ShuffleDataset"]}
{"id": "C75", "title": "Saved files have the documented layout", "statement": "The bytes written for a layer and for a model are exactly those of the layout described in the comments of layer_data.go and model_data.go: version string, sizes and codes in the given order and width, little-endian float64 parameters row by row, optimizer values in map order; the only difference from the description is that the optional slope and dropout fields are always written.", "quantifier": "all layer types, sizes, parameter values, models and map orders", "why_tests_cant": "writer and reader may agree on a wrong layout; no finite set of models covers all contents", "anchors": ["layer_data.go:Serialize", "model_data.go:Serialize", "model_data.go:NewSavedModelData"]}
{"id": "C76", "title": "Training depends on content only; training can be resumed from a file", "statement": "Fit on two models with the same content, optimizers in the same state, the same data and random numbers ends with the same content, whatever the storage. A model that is saved, loaded and then trained ends with the same parameters as the original trained further: true for SGD without decay and momentum, false in general because momentum, moments and step counts are not saved.", "quantifier": "all models without sigmoid layers, data sets, epochs, batch sizes; all optimizers", "why_tests_cant": "a statement about all pairs of storage layouts and all training runs", "anchors": ["model.go:Fit", "model_data.go:LoadModel", "optimizers.go:Update"]}
{"id": "C77", "title": "A negative batch size is rejected", "statement": "Fit with a negative batch size returns an error. False: with a batch size below minus the number of samples Fit panics in slicing the data, and with one between minus the number of samples and -1 it returns nil without training (if nothing is logged).", "quantifier": "all models, data sets, numbers of epochs and negative batch sizes", "why_tests_cant": "the behaviour differs between ranges of the batch size relative to the number of samples, and a no-op looks like success", "anchors": ["model.go:Fit"]}
{"id": "C78", "title": "Fit rejects inputs and targets with different numbers of samples", "statement": "Fit returns an error if X and Y have different numbers of rows. False: only the first Y.Rows rows of X are used; with more inputs than targets the surplus is silently ignored, and with fewer inputs (and no spare capacity) than targets Fit never returns nil but panics or fails.", "quantifier": "all models, data sets of different lengths, batch sizes and epochs", "why_tests_cant": "depends on the capacity of the slice and on the batch in which the data runs out", "anchors": ["model.go:Fit"]}
{"id": "C79", "title": "InitLogger installs the loggers or changes nothing", "statement": "InitLogger returns an error exactly if a log file is asked for and cannot be opened, and then changes nothing; otherwise all loggers are installed and nothing else changes, after which Fit reports data of a wrong width as an error and LoadModel does not panic on files with non-negative key lengths.", "quantifier": "all flags and outcomes of opening the file, all states, models, data and files", "why_tests_cant": "the nil-logger panics occur only on error paths", "anchors": ["nn.go:InitLogger", "model.go:Fit", "model_data.go:LoadModel"]}
{"id": "C80", "title": "LoadFile returns the saved model or an error even if Read returns fewer bytes", "statement": "LoadFile returns the model that was saved, or an error, whatever number of bytes the single Read returns. False: the count is ignored, so if Read ends 8 J bytes early, J at most the number of outputs, LoadFile returns no error and a model in which the last J biases are zero.", "quantifier": "all savable models, map orders and numbers of missing biases", "why_tests_cant": "short reads do not happen for small local files in tests", "anchors": ["model_data.go:LoadFile"]}
{"id": "C81", "title": "CalculateLoss and CalculateAccuracy return the loss and the accuracy of the network", "statement": "For data of the right shapes, CalculateLoss returns the value of the model's loss (as defined in a separate specification of the four losses) at the inference output of the network, and CalculateAccuracy the accuracy of the selected type at that output, an error for unknown types; both change nothing but what the layers remember.", "quantifier": "all models, parameters, data sets, the four losses, all accuracy types, all float semantics", "why_tests_cant": "a wrong loss or accuracy value (dropout applied, wrong type selected) looks plausible for any single model", "anchors": ["model.go:CalculateLoss", "model.go:CalculateAccuracy"]}
{"id": "C82", "title": "Training with logging and validation: the log tells the truth and training is unaffected", "statement": "Fit with any logEvery, with or without validation data, performs the same gradient descent as with logging off and ends with the same parameters, optimizer states and random position; in each epoch divisible by logEvery the log gets the loss and accuracy on the training data, then on the validation data if there is any, of the network as it is at the end of that epoch, and nothing else.", "quantifier": "all models without sigmoid layers, data, losses, accuracy types, epochs, batch sizes, logEvery (also negative)", "why_tests_cant": "relates the log of an arbitrary run to the whole sequence of intermediate networks", "anchors": ["model.go:Fit", "model.go:CalculateLoss", "model.go:CalculateAccuracy"]}
{"id": "C83", "title": "Sigmoid on float64 stays in [0,1], keeps the order and saturates", "statement": "In float64 arithmetic Sigmoid turns every entry that is not NaN (infinities included) into a number in [0,1], never NaN; entries stay in the order of the inputs, if math.Exp keeps the order of its arguments; every finite entry at most -710 becomes exactly 0 and every finite entry at least 800 exactly 1.", "quantifier": "all matrices of float64 values", "why_tests_cant": "2^64 values per entry; overflow of exp and rounding have to be followed for all of them", "anchors": ["activation.go:Sigmoid"]}
{"id": "C84", "title": "Softmax on float64 gives numbers in [0,1] for finite inputs", "statement": "In float64 arithmetic Softmax turns finite entries into numbers in [0,1]. False: exp is taken of the entries as they are, so a finite entry of at least 710 becomes NaN (in rows without NaN), and a row of entries that are all at most -800 becomes all NaN. True for fewer than 8192 columns if all entries are at most 700 and each row has an entry of at least -700; then the order of the entries is kept as well, if math.Exp keeps the order of its arguments.", "quantifier": "all matrices of float64 values", "why_tests_cant": "the failure needs large inputs, the true part covers all rows of up to 8191 float64 values", "anchors": ["activation.go:Softmax"]}
{"id": "C85", "title": "Binary cross-entropy on float64 is not NaN", "statement": "In float64 arithmetic, for predictions in [0,1] and targets 0 or 1, neither BinaryCrossEntropyLoss.Forward nor any entry of Backward is NaN. False: Clip keeps exact zeros and ones, so one prediction that is right and certain (0 for 0 or 1 for 1) makes the whole loss 0*(-Inf) = NaN and its gradient entry 0/0 = NaN. With a sigmoid output layer this happens as soon as a pre-activation of at least 800 meets the target 1: CalculateLoss returns NaN and no error. True for predictions strictly between 0 and 1; the loss is then finite and not negative.", "quantifier": "all shapes (fewer than 2^53 entries for the true part), all float64 predictions, all 0/1 targets, all models with a sigmoid output layer", "why_tests_cant": "needs predictions that are exactly 0 or 1; the true part covers all float64 values between", "anchors": ["loss.go:BinaryCrossEntropyLoss.Forward", "loss.go:BinaryCrossEntropyLoss.Backward", "matrix.go:Clip", "model.go:CalculateLoss"]}
{"id": "C86", "title": "Cross-entropy loss on float64", "statement": "In float64 arithmetic, for predictions in [0,1] and one-hot targets, CrossEntropyLoss.Forward returns no error and a number that is not NaN and not negative; it is infinite if and only if some sample has the prediction 0 for its class.", "quantifier": "all shapes with fewer than 2^53 rows, all float64 predictions in [0,1], all one-hot targets", "why_tests_cant": "needs all float64 values down to the subnormal ones, and sums of any length that must not overflow", "anchors": ["loss.go:CrossEntropyLoss.Forward"]}
{"id": "C87", "title": "Cross-entropy gradient on float64 is not NaN", "statement": "In float64 arithmetic, for predictions in [0,1] and one-hot targets, no entry of CrossEntropyLoss.Backward is NaN. False: Backward does not clip, so a prediction 0 for a class that is not the target's, a right answer, gives 0/0 = NaN. True at every positive prediction; the entry is then 0 for the other classes and not positive for the target's class.", "quantifier": "all shapes with fewer than 2^53 rows, all float64 predictions, all one-hot targets", "why_tests_cant": "needs an exact 0, for example from a ReLU output layer", "anchors": ["loss.go:CrossEntropyLoss.Backward"]}
{"id": "C88", "title": "Dropout in training gives numbers on float64", "statement": "In float64 arithmetic, for every dropout rate that NewDropoutLayer accepts, a training pass of a dropout layer with finite pre-activations returns no NaN. False: the rate 1 is accepted and then every entry of every training pass is NaN (0/0). True for all rates below 1; the outputs are then not negative.", "quantifier": "all float64 dropout rates in [0,1], all layers of any size, all inputs, all sequences of uniform random numbers", "why_tests_cant": "depends on every float64 rate up to the one just below 1 and on all random masks", "anchors": ["network.go:NewDropoutLayer", "network.go:DropoutLayer.Forward"]}
{"id": "C89", "title": "Constructors reject NaN", "statement": "NewSGDOptimizer, NewAdamOptimizer, NewLeakyLayer and NewDropoutLayer return an error when a hyper-parameter they check is NaN. False: their range checks let NaN pass; on float64 they succeed exactly for values in range or NaN (epsilon, beta1, beta2 are never checked). With learning rate or decay NaN every Update makes every weight and bias NaN, and Fit returns no error.", "quantifier": "all float64 hyper-parameters; all parameters and gradients of any shape; all models and training data for Fit", "why_tests_cant": "an if-and-only-if over all float64 values, and an effect on every parameter after any number of steps", "anchors": ["optimizers.go:NewSGDOptimizer", "optimizers.go:NewAdamOptimizer", "optimizers.go:Update", "network.go:NewLeakyLayer", "network.go:NewDropoutLayer", "model.go:Fit"]}
{"id": "C90", "title": "A NaN parameter stays NaN", "statement": "In float64 arithmetic a weight or bias that is NaN before Fit is NaN after Fit, for every optimizer, loss, data set, batch size and number of epochs; Fit returns no error. (A run that has diverged does not recover.)", "quantifier": "all models without sigmoid layers, all optimizers, all training data, all batch sizes and numbers of epochs", "why_tests_cant": "an induction over training steps of any number", "anchors": ["model.go:Fit", "optimizers.go:Update"]}
{"id": "C91", "title": "One NaN parameter shows in the loss but not in predictions", "statement": "In float64 arithmetic one NaN among the weights and biases of a model makes the outputs of Forward NaN for every input (all outputs, or only its column if it is in the last layer and that is not softmax) and makes CalculateLoss return NaN for all four losses. No error is returned. Predict then returns class 0 for every input with categorical accuracy and 1 for every output with binary accuracy. A NaN in an input row makes that row of the output NaN.", "quantifier": "all models of any depth and width, all positions of the NaN, all inputs and targets", "why_tests_cant": "needs every position of the NaN in networks of any depth, and every input", "anchors": ["model.go:Forward", "model.go:CalculateLoss", "model.go:Predict", "misc.go:RowMax"]}
{"id": "C92", "title": "Fit on a model that is not ready panics", "statement": "Fit on a model without layers panics (index out of range) and Fit on a model that was not finalized panics (nil dereference), although both return an error value; so does CalculateLoss. AddLayer after Finalize is accepted without an error, and every later Fit panics because there are fewer optimizers than layers. Predict works on a model that was not finalized; on a model without layers it returns its argument.", "quantifier": "all models of any depth and width, all data, batch sizes and epoch counts", "why_tests_cant": "needs every shape of model and data and every batch size", "anchors": ["model.go:Fit", "model.go:CalculateLoss", "model.go:Predict", "model.go:AddLayer", "model.go:Finalize"]}
{"id": "C93", "title": "Without InitLayers a deep model never learns anything but the last biases", "statement": "A model of two or more layers whose hidden layers are linear, ReLU, leaky ReLU or dropout and which is trained without InitLayers keeps all weights and all hidden biases at 0, whatever the data, loss, optimizer, batch size and number of epochs. Fit returns no error, and the trained model gives every input the same output: the activation of the last biases.", "quantifier": "all depths and widths, all data, all losses, all SGD and Adam settings, all batch sizes and epoch counts (real arithmetic)", "why_tests_cant": "a statement about every data set and any number of updates", "anchors": ["model.go:Fit", "model.go:InitLayers", "model.go:Finalize", "network.go:Backward", "optimizers.go:SGDOptimizer.Update", "optimizers.go:AdamOptimizer.Update"]}
{"id": "C94", "title": "Adam with beta1 = 1 or epsilon = 0 turns parameters into NaN", "statement": "NewAdamOptimizer accepts every epsilon, beta1 and beta2. On float64 with beta1 = 1 every Update makes every weight and bias NaN, whatever the gradients, the accumulated moments and the other settings. With epsilon = 0 the first Update makes exactly-zero-gradient parameters NaN; in particular one Fit with an input that is 0 in every sample makes all weights of that input NaN. No error is returned.", "quantifier": "all float64 parameters, gradients, moments and settings, any shape; all models and data for Fit", "why_tests_cant": "needs all float64 values of gradients and moments, including infinities, NaN and signed zeros", "anchors": ["optimizers.go:NewAdamOptimizer", "optimizers.go:AdamOptimizer.Update", "model.go:Fit"]}
{"id": "C95", "title": "setValues undoes getValues", "statement": "setValues of a layer, given the result of getValues of a layer of the same type, makes the receiver a layer with the same sizes, the same weights and biases (sharing their storage) and the same slope or dropout rate; the receiver's type is kept whatever the map's \"type\" says, and nothing else changes. For losses the size survives likewise. For optimizers setValues copies the hyper-parameters but, on a zero object, leaves the current learning rate 0 and decay and momentum switched off; NewOptimizerFromType sets these too.", "quantifier": "all layers with sizes up to 2^53, all receivers, all losses and optimizers, any float arithmetic exact on integers up to 2^53", "why_tests_cant": "all parameter values and all prior contents of the receiver; sizes beyond what fits in memory", "anchors": ["network.go:setValues", "network.go:getValues", "loss.go:setValues", "optimizers.go:setValues", "optimizers.go:NewOptimizerFromType"]}
{"id": "C96", "title": "binomial.Rand for every number of trials", "statement": "For every N and P, whatever the random source yields, a value returned by Rand is a whole number from 0 to N. For N < 25 it takes exactly N uniform draws, and with independent uniform draws and 0 <= P <= 1 the value is binomially distributed: P(k) = choose(N,k) P^k (1-P)^(N-k). With N = 1 it is the function the dropout layer uses. On float64 with P = NaN and N >= 25 Rand never returns.", "quantifier": "all N, P and random streams; the distribution over exact arithmetic; the NaN case for all float64 N >= 25 and any implementation of the math functions", "why_tests_cant": "probabilities and non-termination for all random streams", "anchors": ["binomial.go:Rand"]}
{"id": "C97", "title": "Rounding error of Dot", "statement": "On IEEE 754 binary64, the product of matrices of finite numbers with inner size n is finite in every entry, and each entry differs from the exact sum of products by at most ((1+u)^(n+1) - 1) * sum|a_k b_k| + n (1+u)^n * 2^-1075 with u = 2^-53, unless sum|a_k b_k| comes within that relative error of the largest float64. The factor (1+u)^n - 1 is at most nu/(1-nu).", "quantifier": "all sizes, all finite float64 entries outside the overflow range", "why_tests_cant": "a bound over all float64 inputs and all inner sizes, against exact real arithmetic", "anchors": ["matrix.go:Dot"]}
{"id": "C98", "title": "Rounding error of a layer", "statement": "On IEEE 754 binary64, a layer of any of the six types with finite parameters, given inputs that are within E of real numbers X, returns finite outputs within an explicit bound (layerErr) of the outputs that exact arithmetic gives for X: the errors of the inputs weighted with |W|, the roundings of Dot and the bias, and for each activation its own bound (hidden, dropout, linear: none; leaky: factor max(1,|slope|); sigmoid: factor 1/4 plus 7u; softmax: exp(2e) - 1 plus 2((1+u)^(3o+2) - 1) + 10u for pre-activation errors e), as long as nothing overflows (softmax: at most 4096 outputs, pre-activations up to 700, one of them at least -700).", "quantifier": "all layer types, sizes, finite parameters, inputs and input errors in range", "why_tests_cant": "a bound over all float64 inputs against exact real arithmetic", "anchors": ["network.go:Forward", "activation.go:RELU", "activation.go:Sigmoid", "activation.go:LeakyRELU", "activation.go:Softmax", "matrix.go:Dot"]}
{"id": "C99", "title": "Rounding error of a network and of Predict", "statement": "On IEEE 754 binary64, Forward of a model of any depth returns finite outputs within an explicit bound (netErr, the layer bounds composed) of the exact output of the network. Consequently Predict returns the class that exact arithmetic gives for every row in which the exact output of that class exceeds the others by more than the two bounds and exceeds its own bound; and for yes/no outputs it returns 1 (0) wherever the exact output is at least 1/2 plus the bound (less than 1/2 minus the bound).", "quantifier": "all depths, layer types, sizes, finite parameters and inputs in range", "why_tests_cant": "a bound over all float64 inputs and all depths against exact real arithmetic", "anchors": ["model.go:Forward", "model.go:Predict", "misc.go:RowMax"]}
{"id": "C100", "title": "The order of the samples does not matter in one batch", "statement": "In exact arithmetic, Fit in one batch (batch size 0 or at least the number of samples) of a model without dropout and sigmoid layers ends with the same parameters and the same optimizer state when the samples and labels are reordered together; in particular ShuffleDataset before such a Fit changes nothing. On float64 numbers this is false: three samples are enough for the bias to differ by 1.", "quantifier": "all models, losses, optimizers, data sets, reorderings and numbers of epochs", "why_tests_cant": "an equality of two runs for every permutation; float64 tests would see differences and could not tell whether they are rounding", "anchors": ["model.go:Fit", "misc.go:ShuffleDataset", "network.go:Backward"]}
{"id": "C101", "title": "Equal units stay equal", "statement": "If two units of a linear, RELU or leaky RELU layer that is not the last have the same incoming weights, the same bias, the same outgoing weights and the same optimizer state, then after Fit they still have, and they give the same output on every input: training cannot tell them apart. This holds in any arithmetic, bit for bit on float64 numbers too.", "quantifier": "all models without sigmoid layers, losses, optimizers, data sets, batch sizes, numbers of epochs and arithmetics", "why_tests_cant": "an invariant of every training run of every model, exact even with rounding", "anchors": ["model.go:Fit", "network.go:Backward", "optimizers.go:Update"]}
{"id": "C102", "title": "Dead units stay dead", "statement": "In exact arithmetic, a unit of a first RELU layer (with or without dropout) whose pre-activation is not positive on any training sample and whose optimizer state is zero keeps its incoming weights, its bias and its outgoing weights through Fit, and outputs 0 on every sample afterwards.", "quantifier": "all models whose first layer is RELU, losses, optimizers, data sets, batch sizes, dropout draws and numbers of epochs", "why_tests_cant": "a statement about all training runs; a test sees one", "anchors": ["model.go:Fit", "activation.go:RELU", "optimizers.go:Update"]}
{"id": "C103", "title": "Adam's steps are bounded whatever the gradients", "statement": "In exact arithmetic, with 0 <= beta1 < 1, beta1^2 < beta2 < 1, epsilon > 0 and non-negative rate and decay, Fit with Adam moves every weight and every bias by at most (number of batches) x (learning rate) x sqrt((1-beta1) / ((1-beta2)(1-beta1^2/beta2))), whatever the data, the labels and the loss. The first step of a fresh Adam is exactly lr |g| / (sqrt((1-beta2)/(1-beta1)) |g| + epsilon), which is about 10 times the learning rate for the usual betas, since the code corrects both moments with beta1.", "quantifier": "all models, layers, losses, data sets, batch sizes, numbers of epochs and hyper-parameters in the range", "why_tests_cant": "a bound over all gradient sequences, proved by an invariant of the moments", "anchors": ["optimizers.go:AdamOptimizer.Update", "model.go:Fit"]}
{"id": "C104", "title": "The sine example trains a network by gradient descent and reports no error", "statement": "The example program TestSine, which makes three layers, three optimizers and 250 points and trains with the exported methods of layers, loss and optimizers, reports no error. It draws the weights of the three layers, moves the points by one permutation, and does 1000 epochs of gradient descent on the mean squared error with batches of 25. Nothing that existed before changes, except that normal draws are used.", "quantifier": "All states, all normal draws, all optimizers made by a constructor, all results of math.Sin, all shuffles, float64 and exact arithmetic.", "why_tests_cant": "The example is one run with one stream of random numbers; whether it panics, reports an error or updates a wrong layer for other draws is not seen.", "anchors": ["examples/sine_test.go:TestSine"]}
{"id": "C105", "title": "The optimizer tests train a classifier by gradient descent and report no error", "statement": "The test programs TestSGDOptimizer and TestAdamOptimizer report no error. They draw the weights of the three layers and do 500 epochs of gradient descent on the cross-entropy of all 100 samples, although the loss object may clip its input matrix before the gradient is computed: the clipping never changes an output of softmax.", "quantifier": "All states, all normal draws, all samples, all optimizers made by a constructor (SGD or Adam), float64 and exact arithmetic.", "why_tests_cant": "Each test is one run with random data and only checks that no error is reported.", "anchors": ["optimizers_test.go:TestSGDOptimizer", "optimizers_test.go:TestAdamOptimizer", "loss.go:CrossEntropyLoss.Forward", "network.go:BackwardCrossEntropy"]}
{"id": "C106", "title": "Fit gives the same parameters as the hand-written training loops, bit for bit", "statement": "If a model with the same layers, loss and optimizer is made while the same random numbers come and Fit trains it with the same batch size and number of epochs on the same data, its parameters and the state of its optimizers are equal, bit for bit, to those of the hand-written loops of TestSine, TestSGDOptimizer and TestAdamOptimizer.", "quantifier": "All states, random numbers, samples and constructed optimizers; float64 arithmetic (the sine program also for exact arithmetic).", "why_tests_cant": "No test compares the two ways to train; with different random numbers the results cannot be compared.", "anchors": ["model.go:Fit", "examples/sine_test.go:TestSine", "optimizers_test.go:TestSGDOptimizer", "optimizers_test.go:TestAdamOptimizer"]}
{"id": "C107", "title": "Make, train, save, load and use: the loaded model computes what gradient descent made", "statement": "If a model without sigmoid layers is made, trained with Fit, saved to a file, and the file is loaded by another program, no step reports an error, no other file changes, and Predict, CalculateLoss and CalculateAccuracy of the loaded model return, bit for bit, the decoded output, the loss and the accuracy of the network that gradient descent makes of the random start. In general two models with equal settings and layers return the same predictions, losses and accuracies, wherever they are stored.", "quantifier": "All architectures of at most 127 layers, all losses, optimizers, accuracy kinds, data, epochs, batch sizes, random numbers, disk contents, iteration orders of the optimizer settings, and all states of the loading program.", "why_tests_cant": "A test runs one architecture and one data set and looks at one printed number; the claim relates three programs for all of them.", "anchors": ["model.go:Fit", "model.go:CalculateLoss", "model.go:CalculateAccuracy", "model.go:Predict", "model_data.go:SaveFile", "model_data.go:LoadFile"]}
{"id": "C108", "title": "NewSpiralData makes spiral arms with one label each inside the unit square", "statement": "NewSpiralData(points, classes) returns a (points*classes) x 2 matrix and a (points*classes) x classes matrix that share no storage. Row k holds the point at radius (k mod points)/(points-1) and at the angle of its arm plus noise from the random generator, one draw per row, and the label of arm k/points; every row has exactly one label. In exact arithmetic the distance of each point from the origin is its radius, at most 1. In float64, if sine and cosine return values in [-1, 1], every coordinate is finite and in [-1, 1] in spite of rounding. With one point per arm all coordinates are NaN.", "quantifier": "All positive numbers of points and classes (float64 bounds: 2 to 2^53 points), all sine and cosine functions, all random numbers, all heap states.", "why_tests_cant": "The noise is random and the bounds must hold for every draw and every size; the NaN case needs a size no example uses.", "anchors": ["examples/spiral_test.go:NewSpiralData", "examples/spiral_test.go:linspace"]}
{"id": "C109", "title": "The training programs that use Fit run gradient descent on the data they build, and drop Fit's error", "statement": "TestSpiral, TestIris and TestTrainModel report no error and leave everything that existed unchanged; each trains a model made of the random numbers by gradient descent on a permutation of the data it builds, for its number of epochs and with its batches, and logs exactly one line per 100 epochs beginning with the first, with the loss and accuracy reached. If iris.data has no records or its text cannot be parsed (the program tests the wrong error variable), TestIris still reports nothing although Fit fails at once; the only trace is one logged error. If the log file cannot be opened each program reports the error and does nothing.", "quantifier": "All sequences of random numbers, all shuffles, all optimizers, all iris records (1 to 2^53, and the empty case), all initial states.", "why_tests_cant": "A run of the program shows one seed and has no assertion about the trained weights; the dropped error never makes the test fail.", "anchors": ["examples/spiral_test.go:TestSpiral", "examples/iris_test.go:TestIris", "model_test.go:TestTrainModel", "model.go:Fit"]}
{"id": "C110", "title": "The repository's model programs report no error, and the loss printed after loading is that of the saved network", "statement": "TestModel (forward, backward and predict of a freshly made three-layer network) reports no error on any input with 3 columns and targets with 1 column and equally many rows, and changes nothing that existed. TestModelData and TestModelSaveLoad report no error in any iteration order of the optimizer settings and with any files on the disk, and the loss they print for the loaded model is, bit for bit, the mean squared error of the network made of the random numbers. Loading changes nothing that existed. If the log file cannot be opened the programs report it and do nothing.", "quantifier": "All random numbers, optimizers, precisions not below 0, inputs and targets with any number of rows, iteration orders, disk contents and initial states.", "why_tests_cant": "These are the tests: a run uses one seed and one map order, and the printed loss is compared with nothing.", "anchors": ["model_test.go:TestModel", "model_data_test.go:TestModelData", "model_data_test.go:TestModelSaveLoad", "model_data.go:LoadModel"]}
{"id": "C111", "title": "Full-batch SGD on a softmax model converges to the least cross-entropy", "statement": "A model with one softmax layer is trained with Fit, the cross-entropy loss, plain SGD (no momentum, no decay) and the whole data set as one batch, on one-hot targets, with a learning rate of at most 1/(2(1+|x|^2)) for every input row x. After any number of epochs the mean cross-entropy of the outputs is at most the initial one. After t >= 1 epochs it exceeds the mean cross-entropy of the softmax model with any other weights W and biases b by at most |(W0,b0)-(W,b)|^2/(2*rate*t).", "quantifier": "All initial weights and biases, numbers of inputs, classes, samples and epochs, data, labels, rates within the bound, and competitors (W,b); real arithmetic.", "why_tests_cant": "A test sees one data set, one start and finitely many epochs; the claim compares with every possible choice of parameters.", "anchors": ["model.go:Fit", "loss.go:CrossEntropyLoss", "network.go:SoftmaxLayer", "optimizers.go:SGDOptimizer"]}
{"id": "C112", "title": "Training on linearly separable data ends with perfect classification", "statement": "In the situation of C111, let the data be linearly separable: some weights and biases give every training sample its highest score in its own class. For every eps > 0 there is a number T such that after Fit with any t >= T epochs the mean cross-entropy is below eps, every training sample gets a probability above 1/2 for its class, Predict (categorical) returns the class of every sample and CalculateAccuracy returns 1, without errors.", "quantifier": "All separable data sets, starts, rates within the bound, eps > 0 and all t >= T; real arithmetic.", "why_tests_cant": "A test sees one data set and one number of epochs, not all large enough ones.", "anchors": ["model.go:Fit", "model.go:Predict", "model.go:CalculateAccuracy", "accuracy.go:CategoricalAccuracy"]}
{"id": "C113", "title": "The program that makes and trains a softmax classifier learns every separable data set", "statement": "The whole client program: NewModel, one softmax layer, InitLayers with random weights, Finalize with cross-entropy and SGD, Fit with full batches. If the data is linearly separable and the learning rate is at most 1/(2(1+|x|^2)) for all inputs, then whatever the random numbers there is a T such that for all t >= T epochs no step fails, Predict returns the class of every training sample and CalculateAccuracy returns 1.", "quantifier": "All random numbers, sizes, separable data sets, rates within the bound, precisions, and t >= T; real arithmetic.", "why_tests_cant": "A test runs one seed, one data set and one number of epochs.", "anchors": ["model.go:NewModel", "model.go:InitLayers", "model.go:Finalize", "model.go:Fit", "model.go:Predict", "model.go:CalculateAccuracy"]}
{"id": "C114", "title": "The matrix tests pass", "statement": "With float64 arithmetic and from any state, TestMatrix, TestMatrixFromSlice, TestMatrixRowsCols, TestMatrixOperations, TestMatrixScalarOperations, TestMatrixDotProduct, TestMatrixTranspose and TestMatrixSum report no error, do not panic, and change nothing that existed before.", "quantifier": "all states in which the tests are run; float64 rounding included", "why_tests_cant": "a run of the tests starts from one state on one machine; here IEEE arithmetic and every state are covered", "anchors": ["matrix_test.go:TestMatrix", "matrix_test.go:TestMatrixRowsCols", "matrix_test.go:TestMatrixOperations", "matrix_test.go:TestMatrixScalarOperations", "matrix_test.go:TestMatrixDotProduct", "matrix_test.go:TestMatrixTranspose", "matrix_test.go:TestMatrixSum"]}
{"id": "C115", "title": "The helper and accuracy tests pass", "statement": "With float64 arithmetic and from any state, the tests of misc_test.go and accuracy_test.go report no error and do not panic (the accuracies computed are exactly 0.75, 1 and 1). TestShuffleDataset passes for every sequence of draws, leaves both columns in the same new order, and so keeps every pair together.", "quantifier": "all states, all sequences of random draws", "why_tests_cant": "TestShuffleDataset only prints; a run sees one sequence of draws", "anchors": ["misc_test.go:TestSparseToOneHot", "misc_test.go:TestRowMax", "misc_test.go:TestOutputBinaryValues", "misc_test.go:TestShuffleDataset", "accuracy_test.go:TestRegressionAccuracy", "accuracy_test.go:TestCategoricalAccuracy", "accuracy_test.go:TestBinaryCategoricalAccuracy"]}
{"id": "C116", "title": "The layer tests pass with textbook outputs and gradients", "statement": "Whatever the random numbers, TestHiddenLayer, TestLinearLayer, TestLeakyLayer, TestSoftmaxLayer and TestDropoutLayer report no error, and the outputs and the three gradients that they print are those of the textbook formulas on the numbers in the test and the random weights. In TestSoftmaxCrossEntropyLayer the loss printed is the cross-entropy of the softmax outputs with the one-hot target and the gradients are those of the fused rule.", "quantifier": "all states, all random weights and masks, all number types", "why_tests_cant": "the tests only print their results and a run draws one set of weights", "anchors": ["network_test.go:TestHiddenLayer", "network_test.go:TestLinearLayer", "network_test.go:TestLeakyLayer", "network_test.go:TestSoftmaxLayer", "network_test.go:TestDropoutLayer", "network_test.go:TestSoftmaxCrossEntropyLayer"]}
{"id": "C117", "title": "The loss tests and the layer file test pass", "statement": "The four tests of loss_test.go report no error, and the loss and gradient printed are those of the formulas on the numbers in the test. TestLayerData reports no error, and the layer it loads is another object with the type, sizes, weights and biases of the one it saved.", "quantifier": "all states, all random weights, all number types", "why_tests_cant": "the tests print the numbers without comparing them; TestLayerData does not compare the layers", "anchors": ["loss_test.go:TestMSELoss", "loss_test.go:TestAbsLoss", "loss_test.go:TestCrossEntropyLoss", "loss_test.go:TestBinaryCrossEntropyLoss", "layer_data_test.go:TestLayerData"]}
{"id": "C118", "title": "Three passing tests that see no error where there is one", "statement": "TestSigmoidLayer passes although Backward of the 3 x 5 layer returns a 3 x 3 weight gradient, a 1 x 3 bias gradient and an empty input gradient and overwrites the input. TestAbsLoss passes although the gradient is 0 in every place. TestMatrixScalarOperations passes although the entry that it compares is 0 and the expected number is 9: the constants 1/3 and 10/3 are divisions of whole numbers and the check is one-sided.", "quantifier": "all states, all random weights", "why_tests_cant": "the statement is about what the tests themselves miss", "anchors": ["network_test.go:TestSigmoidLayer", "loss_test.go:TestAbsLoss", "matrix_test.go:TestMatrixScalarOperations", "network.go:SigmoidLayer.Backward"]}
{"id": "C119", "title": "Mini-batch SGD with learning-rate decay on a softmax model converges to the least cross-entropy", "statement": "A model with one softmax layer is trained with Fit, the cross-entropy loss, and SGD without momentum with any positive learning rate and any positive decay, in batches of any size (0 meaning all rows), on one-hot targets. For all weights W and biases b and every eps > 0 there is a T such that after Fit with any t >= T epochs the mean cross-entropies of the batches add up to at most those of the softmax model with W and b, plus eps. If the batches have equal sizes, the mean cross-entropy of the whole training data does the same.", "quantifier": "All initial weights and biases, optimizers with any update count, positive rates and decays, batch sizes, sizes, data, labels, competitors (W,b), eps > 0 and t >= T; real arithmetic.", "why_tests_cant": "A test sees one data set, one rate, one batch size and finitely many epochs; the claim is about the limit and compares with every possible choice of parameters.", "anchors": ["model.go:Fit", "loss.go:CrossEntropyLoss", "network.go:SoftmaxLayer", "optimizers.go:SGDOptimizer"]}
{"id": "C120", "title": "Mini-batch training with decay on linearly separable data ends with perfect classification", "statement": "In the situation of C119, let the data be linearly separable. There is a T such that after Fit with any t >= T epochs every training sample gets a probability above 1/2 for its class, Predict (categorical) returns the class of every sample and CalculateAccuracy returns 1, without errors; whatever the positive learning rate, the positive decay and the batch size.", "quantifier": "All separable data sets, starts, positive rates and decays, batch sizes, and all t >= T; real arithmetic.", "why_tests_cant": "A test sees one data set, one rate, one batch size and one number of epochs, not all large enough ones.", "anchors": ["model.go:Fit", "model.go:Predict", "model.go:CalculateAccuracy", "accuracy.go:CategoricalAccuracy", "optimizers.go:SGDOptimizer"]}
{"id": "C121", "title": "The program that makes a softmax classifier and trains it in batches learns every separable data set", "statement": "The whole client program: NewModel, one softmax layer, InitLayers with random weights, Finalize with cross-entropy and SGD with decay, Fit with batches of any size. If the data is linearly separable then, whatever the random numbers, the positive learning rate and the positive decay, there is a T such that for all t >= T epochs no step fails, Predict returns the class of every training sample and CalculateAccuracy returns 1.", "quantifier": "All random numbers, sizes, separable data sets, positive rates and decays, batch sizes, precisions, and t >= T; real arithmetic.", "why_tests_cant": "A test runs one seed, one data set and one number of epochs.", "anchors": ["model.go:NewModel", "model.go:InitLayers", "model.go:Finalize", "model.go:Fit", "model.go:Predict", "model.go:CalculateAccuracy"]}
{"id": "C122", "title": "Mini-batch SGD with a constant rate learns an exact linear relation", "statement": "A model with one linear layer (c outputs) is trained with Fit, the squared error and plain SGD (no momentum, no decay) in batches of any size, with a learning rate of at most c/(2*sum(1+|x|^2)), the sum being over the rows of a batch, on data that some weights Ws and biases bs fit exactly. With every epoch the squared distance of the trained parameters to (Ws,bs) does not increase. The squared errors after 0, 1, ..., T-1 epochs add up to at most (1+k^2)*|(W0,b0)-(Ws,bs)|^2/rate for every T, k being the number of batches. So the squared error tends to 0 and every prediction tends to its target.", "quantifier": "All starts, sizes, data with an exact fit, batch sizes, rates within the bound, numbers of epochs, and exact fits (Ws,bs); real arithmetic.", "why_tests_cant": "A test sees one data set and finitely many epochs; the bound holds for all numbers of epochs at once.", "anchors": ["model.go:Fit", "loss.go:MeanSquaredLoss", "network.go:LinearLayer", "optimizers.go:SGDOptimizer"]}
{"id": "C123", "title": "The rejection methods of binomial.Rand: what they return, and what they never return", "statement": "For N >= 25, let p = min(P,1-P). If N*p < 1, Rand returns v exactly if v is the first accepted count of the Poisson method (N minus it if P > 1/2): a round counts the arrivals, with the exponential draws as gaps, before time N*p, and accepts k if the next draw is at least (N-k+1/2)*L(-k/N) + k - (N-k)*L(-p) + 1/(12(N-k)) - N*p + 0.026, L being the Pade approximant of log(1+z). If N*p >= 1, Rand returns v exactly if v is the first accepted count of the Cauchy method: a round proposes em = sqrt(2Np(1-p))*tan(pi*u) + N*p, skips it outside [0,N+1), and accepts k = floor(em) if the next draw is at most 1.2*sqrt(2Np(1-p))*(1+tan(pi*u)^2) times the binomial probability of k. In both cases exactly the draws of these rounds are used. On float64 the Poisson method never returns N (never 0 if P > 1/2), since the bound then contains 1/(12*0) = +Inf.", "quantifier": "All N >= 25, all P, all streams of draws, all positions; the first two parts in real arithmetic, the last on float64 for N <= 2^52 and finite draws.", "why_tests_cant": "The value depends on unboundedly many random draws; the excluded value has a probability below 1e-34 and is never seen in a test, wrong or right.", "anchors": ["binomial.go:Rand"]}
{"id": "C124", "title": "Concurrent read-only calls do not disturb each other", "statement": "Let any number of goroutines call Predict, CalculateLoss or CalculateAccuracy at the same time, on the same model or on models that share layers (each model with at least one layer, all matrices well formed, each call alone not panicking). Whatever the order in which their memory accesses are interleaved: no goroutine panics; a call that returns returns what it returns when it is the only one, and a Predict call returns no error and a matrix with the decoded outputs of its network on its input, which stays intact whatever the others do afterwards; everything that existed before, the parameters of all layers, the optimizers, the log and the streams of random numbers are unchanged at every moment; every schedule ends, after the same number of accesses. The calls are nevertheless not free of data races in Go's sense: on a model whose first layer is a ReLU, leaky ReLU or dropout layer, two goroutines can both be about to write the reluInputs field of the same layer object.", "quantifier": "every state of memory, every number of goroutines, all models of any size, inputs and targets, every schedule at the level of single accesses to slice elements and layer fields", "why_tests_cant": "The tests run on one goroutine; the number of interleavings is astronomically large and the scheduler of a test run picks a few of them. The race detector reports the writes to reluInputs but cannot tell whether they can change a result.", "anchors": ["model.go:143-169", "model.go:304-356", "network.go:92-118", "network.go:209-229", "network.go:317-340", "network.go:440-466", "network.go:558-584", "network.go:802-828", "matrix.go:37-57", "misc.go:35-73"]}
{"id": "C125", "title": "One hidden layer and a linear layer approximate every continuous function", "statement": "In exact real arithmetic: for every compact set K of inputs, every function from K to vectors that is continuous, and every epsilon > 0 there are a width n and parameters such that every model with a ReLU, dropout, sigmoid or leaky ReLU layer (slope other than 1 and -1) of width n followed by a linear layer with these parameters, asked to Predict (accuracy type 0) any matrix whose rows lie in K, returns no error and values less than epsilon away from the function. Models with any parameters can be made through the public interface: building the layers with the constructors, AddLayer, assigning every weight and bias with Matrix.Set and Finalize returns no error, changes nothing that existed and gives a model with exactly the chosen parameters (also on float64); so the program that does this and then predicts has the stated result from every state (widths up to 2^53).", "quantifier": "every input and output size, every compact set, every continuous function, every epsilon, every hidden layer type, every state of memory, every input matrix with rows in the set", "why_tests_cant": "A test can compare one network with one function at finitely many points. That a network exists for every continuous function and every accuracy, with the error bound at every point of the set, is an existence statement over an infinite family of functions.", "anchors": ["model.go:75-97", "model.go:100-133", "model.go:340-356", "matrix.go:93-105", "network.go:92-118", "network.go:317-340", "network.go:440-466", "network.go:802-828", "network.go:209-229"]}
{"id": "C126", "title": "One hidden layer and a softmax layer can learn any labelling of distinct samples", "statement": "In exact real arithmetic: for every finite number of pairwise disjoint compact classes of inputs there are a width and parameters such that every model with one ReLU, dropout, sigmoid or (not linear) leaky layer of that width followed by a softmax layer with these parameters predicts (accuracy type 1) the class of every sample of every matrix whose rows belong to the classes. In particular, for every data set in which samples with different labels are different there are parameters with which Predict returns the label of every sample.", "quantifier": "every number of classes, every family of disjoint compact sets, every finite data set, every state of memory and every input matrix", "why_tests_cant": "The claim is about the existence of parameters for every data set and about all points of the classes, which are infinite sets; training in a test finds or does not find parameters for one data set.", "anchors": ["model.go:340-356", "misc.go:35-56", "network.go:92-118", "network.go:317-340", "network.go:440-466", "network.go:802-828", "network.go:558-584"]}
{"id": "C127", "title": "Linear layers alone cannot compute exclusive-or", "statement": "In exact real arithmetic: let a model have only linear layers (or leaky ReLU layers with slope 1) before its last layer, which is a softmax or sigmoid layer. Whatever its depth, widths and parameters, it does not predict exclusive-or: on four inputs a0, a1, a2, a3 with a0 + a3 = a1 + a2, Predict with accuracy type 1 never returns one class for a0 and a3 and another class for a1 and a2, and with accuracy type 2 and a sigmoid layer at the end no column of the prediction does. With one layer that is not linear in front of the softmax layer there are parameters that predict exclusive-or. The condition on the last layer is needed: because RowMax starts its scan with the value 0, a single linear layer with suitable parameters does predict exclusive-or.", "quantifier": "every depth, all widths and parameters, every four inputs with a0 + a3 = a1 + a2, every pair of different classes, every state of memory", "why_tests_cant": "That no parameters work is a statement about all points of a space of any dimension; failing to train a network in a test shows nothing about the parameters that were not tried.", "anchors": ["model.go:340-356", "misc.go:35-73", "network.go:209-229", "network.go:317-340", "network.go:440-466", "network.go:558-584"]}
{"id": "C128", "title": "Copies of a Model share the array of their layers", "statement": "Model is a struct and AddLayer extends its Layers slice with append. A client program may create models with NewModel, copy them by assignment, call AddLayer and call anything else that leaves Layers alone. If AddLayer is only called on an empty model or on one that has at least as many layers as each of its copies (in particular if no model is copied), every panic, error and model is the one computed with Layers as a list of its own, whatever the growth of arrays. Otherwise it need not be: if a model with n layers (at most 256) is built, copied with b := a, and then a.AddLayer(x) and b.AddLayer(y) are called with layers that fit, no call returns an error and b is right, but a is right exactly when n is 0 or a power of two (with the growth of slices of the Go runtime); for every other n the last layer of a is y, while its OutputSize is that of x, and a.Predict computes the network that ends in y.", "quantifier": "all sequences of operations on any number of variables, all layers, all states of memory, every growth of arrays; n up to 256 for the exact condition", "why_tests_cant": "Whether two copies interfere depends on spare capacity that no test of the package looks at; programs with copies form an infinite family, and the failure is silent: no error is returned by any call.", "anchors": ["model.go:53-72", "model.go:75-97", "model.go:100-133", "model.go:143-169", "model.go:340-356"]}
{"id": "C129", "title": "Training with momentum converges", "statement": "In exact real arithmetic: a model with one layer, whose SGD optimizer has momentum 0 < b < 1, no decay and a constant rate and has not been used yet, is trained with Fit on the whole data set per step. For a softmax layer with cross-entropy on one-hot targets and rate*(1+|x_i|^2) <= (1-b)/2 for every sample, and for a linear layer with mean squared error on c outputs and rate*sum_i(1+|x_i|^2)/c <= (1-b)/2: Fit returns no error; after any number of epochs the objective is at most its initial value f0; and after t >= 1 epochs it exceeds the objective of any weights W and biases B, hence the least possible one, by at most ((1-b)/(2*rate)*|(W0,B0)-(W,B)|^2 + 2(1+b)/(1-b)^2*f0)/t.", "quantifier": "all widths, data sets, initial parameters, admissible rates and momenta, numbers of epochs, competing parameters and states of memory", "why_tests_cant": "Convergence is a statement about every number of epochs; with momentum the objective need not decrease from one epoch to the next, so no finite trace shows that it stays below its initial value or how fast the gap closes.", "anchors": ["model.go:Fit", "optimizers.go:96-161", "loss.go:CrossEntropyLoss", "loss.go:MeanSquaredLoss", "network.go:SoftmaxLayer", "network.go:LinearLayer"]}
{"id": "C130", "title": "With momentum, separable data ends up classified perfectly", "statement": "In exact real arithmetic: under the conditions of C129 for the softmax layer, if some weights and biases score every training sample highest in its own class, then for every eps > 0 there is a number T such that after every number t >= T of epochs of SGD with momentum the cross-entropy is below eps, every sample has a probability above 1/2 for its class, Predict returns the classes of all training samples and CalculateAccuracy returns 1. This holds for the whole program that creates the optimizer and the model, draws random weights and trains, whatever the random numbers.", "quantifier": "all separable data sets, initial parameters and random numbers, admissible rates and momenta, all t from some T on", "why_tests_cant": "That accuracy 1 is reached for every separable data set and kept forever after cannot be seen on finitely many data sets and epochs.", "anchors": ["model.go:Fit", "model.go:Predict", "model.go:CalculateAccuracy", "optimizers.go:71-161", "network.go:SoftmaxLayer"]}
{"id": "C131", "title": "The error line of Fit names the stage that failed", "statement": "If Fit returns an error, a call it made (Forward or Backward on a batch, an optimizer Update, or CalculateLoss or CalculateAccuracy on the training or the validation data) returned that error, Fit did nothing afterwards but write one line with the error, and the line names the stage that failed. (False of the code: a failing backward pass, for instance with targets of the wrong width, is reported as \"Failed to perform forward pass\". All other lines name the right stage.)", "quantifier": "all models, data, arguments and states", "why_tests_cant": "Which call failed is only visible in the text of a log line; a test would have to provoke each failure at each place in every kind of model.", "anchors": ["model.go:214-301", "model.go:248"]}
{"id": "C132", "title": "Error texts and log lines can be told apart", "statement": "The text of an error returned by the package tells which of its errors it is, including the dimensions, the index or the size printed in it: two different errors never have the same text. The text of a line that Fit or LoadModel writes to the log tells whether it is about the training data, the validation data, a failure or a version, and which epoch, which stage and error, or which version it is about.", "quantifier": "all errors and log lines, all integers printed, whatever texts %f produces", "why_tests_cant": "Texts contain arbitrary integers and the texts of other errors; that no two combinations coincide cannot be enumerated.", "anchors": ["matrix.go:13-26", "network.go:26-28", "loss.go:22-24", "optimizers.go:71-81", "model.go:241-296", "model_data.go:186-197", "layer_data.go:131"]}
{"id": "C133", "title": "Training on the mean absolute error", "statement": "Training on the mean absolute error moves the predictions towards the targets: a linear layer that predicts a sample wrongly gets a smaller error after some number of epochs of plain SGD with a small learning rate. (False with two or more outputs: there Fit changes no weight and no bias, whatever the layers, the data, the number of epochs and the batch size, with plain or fresh optimizers. With one output it is subgradient descent: among the runs of fewer than T epochs there is one whose error exceeds the least possible one by at most distance²/(2·rate·T) + rate/2·r·Σ(1+|x|²), and a single sample is approached by rate·(1+|x|²) per epoch.)", "quantifier": "all models without sigmoid layers (two or more outputs), all one-layer linear models with one output; all data, epochs, batch sizes and learning rates; exact arithmetic", "why_tests_cant": "That no training run whatsoever changes a parameter, and a bound for every number of epochs against every choice of parameters, are statements about infinitely many runs.", "anchors": ["loss.go:131-188", "model.go:214-300", "optimizers.go:96-160"]}
{"id": "C134", "title": "The learning rates at which one sample is learned", "statement": "A linear layer with c outputs trained with plain SGD on the squared error of one sample (x, y) predicts y + ρ^t (P - y) after t epochs, where P is the prediction before training and ρ = 1 - rate·(2/c)·(1+|x|²). Hence it converges to y exactly for learning rates below c/(1+|x|²); at that rate it alternates between two values for ever, and above it the error of a wrong prediction grows beyond all bounds.", "quantifier": "all one-layer linear models, samples, numbers of epochs and positive learning rates; exact arithmetic", "why_tests_cant": "A limit and its failure are statements about all numbers of epochs; the threshold is a statement about all real learning rates.", "anchors": ["loss.go:80-104", "network.go:158-270", "model.go:214-300", "optimizers.go:96-160"]}
{"id": "C135", "title": "Training on copies of the data set", "statement": "Training in one batch on c copies of the data set gives the same parameters as training on the data set. (True for cross-entropy and binary cross-entropy, with any optimizer: their gradients are divided by the number of samples. False for the squared and the absolute error, whose gradients are summed: there it is training on the data set with the learning rate of SGD multiplied by c, or the epsilon of Adam divided by c.)", "quantifier": "all models without dropout and sigmoid layers, all data, numbers of copies, epochs and optimizer states; exact arithmetic", "why_tests_cant": "An equality of two training runs of any length on data of any size, for any optimizer state.", "anchors": ["loss.go:80-104", "loss.go:157-188", "loss.go:253-275", "loss.go:331-356", "model.go:214-300", "optimizers.go:96-296"]}
{"id": "C136", "title": "A layer added at several places is trained as one shared layer", "statement": "AddLayer accepts a layer that is already in the model; Fit then makes steps of gradient descent on the shared parameters: with plain SGD, each parameter moves by -rate times the derivative of the objective with respect to it, counted as one variable for all places of the layer. (True if only linear layers occur more than once, where for any optimizers, batches and epochs every place contributes its own optimizer step to the parameters. False for ReLU layers: the backward pass of an earlier place uses the outputs remembered from the last one.)", "quantifier": "all models, layer objects, sizes, data; the step structure for all epochs, batch sizes and optimizers over any arithmetic, the derivatives over exact arithmetic", "why_tests_cant": "A derivative is a limit, and the claim is about all ways of repeating layers in models of any depth.", "anchors": ["model.go:74-97", "model.go:172-211", "model.go:252-260", "network.go:90-150"]}
{"id": "C137", "title": "Any program of Fit, Predict, CalculateLoss, CalculateAccuracy and InitLayers works, and looking at a model does not change it", "statement": "On a finished model and valid data sets, any sequence of calls of Fit, Predict, CalculateLoss, CalculateAccuracy and InitLayers, in any order, runs without panic and error. The answer of every call is determined by the parameters, the optimizer states and the number of random values used when it starts, as specified call by call. At the end all data and all matrices that were returned on the way still have their contents. Leaving out any calls of Predict, CalculateLoss and CalculateAccuracy changes neither the answers of the other calls, nor the log, nor the final parameters, optimizer states and positions in the random sources.", "quantifier": "all programs (lists of calls of any length), models, optimizers, losses, data sets, batch sizes, epochs, arithmetics", "why_tests_cant": "The sequences of calls are unbounded, and every call leaves memory behind (remembered inputs and outputs) that a later call could read.", "anchors": ["model.go:136-357", "network.go:75-150"]}
{"id": "C138", "title": "The numbering of the units does not matter", "statement": "In exact arithmetic, for models without dropout and sigmoid layers: renumber the inputs, the hidden units and the outputs of a model in any way, and the columns of the data with them. Fit (any epochs, batch size and optimizers) then ends with the same parameters and optimizer states up to this numbering, and Predict returns the same values, in renumbered columns. In particular, hidden units that can be exchanged without changing the model can still be exchanged after training. On float64 numbers the first part is false: three hidden units are enough for the prediction to differ by 1.", "quantifier": "all models, losses, optimizers, data sets, renumberings of every level, batch sizes and numbers of epochs", "why_tests_cant": "An equality of two runs for every permutation of every layer; float64 tests would see differences and could not tell whether they are rounding.", "anchors": ["model.go:143-300", "model.go:340-357", "network.go:92-150", "network.go:558-700"]}
{"id": "C139", "title": "Models can be trained at the same time", "statement": "Let any number of goroutines call Fit at the same time, each on its own model (no layer object, optimizer or parameter row in common; no dropout layer, the first layer not a sigmoid layer); the training data may be shared. Then, whatever the order of their memory accesses: no goroutine panics, every schedule ends after the same number of accesses, every call returns the error it returns when it is alone and leaves its model and its optimizers as it leaves them then (so C70 describes the trained model), the data and everything that belongs to no model are unchanged, and the log is an interleaving of the lines each call logs alone. Two Fit calls on the same model can reach a state in which both are about to write the same field of the same layer.", "quantifier": "all numbers of goroutines, models, data, optimizers, numbers of epochs, batch sizes, logging settings and all schedules of single memory accesses", "why_tests_cant": "The number of schedules of a single training step is astronomically large; a race detector sees only the schedules that happen to occur.", "anchors": ["model.go:172-301", "network.go:92-160", "optimizers.go:96-178", "optimizers.go:225-296"]}
{"id": "C140", "title": "Training with SGD on float64 goes round in a circle", "statement": "A model without Dropout layers and without sigmoid layers, whose optimizers are SGD without decay (with or without momentum, in any state), is trained on float64 numbers by calling Fit over and over with the same data. All calls succeed, and there are N and p > 0, with N + p at most 2^(128 P) for P weights and biases (2^(64 P) without momentum), such that for every d >= N the model has after d + p calls exactly the same parameters and velocities as after d calls: the training repeats itself for ever. For numbers of any kind: if one call leaves the parameters and velocities (without momentum: the parameters) as they are, no later call changes them, so a program that stops training when an epoch changes nothing misses nothing.", "quantifier": "all models without dropout and sigmoid layers, losses, data, batch sizes, epochs per call, learning rates, momenta, states of the optimizers, all numbers of calls; any finite number type, in particular float64 with any math library accurate to one ulp", "why_tests_cant": "the cycle may be astronomically long; a test cannot run Fit for ever", "anchors": ["model.go:213-301", "optimizers.go:96-178"]}
{"id": "C141", "title": "The accuracy on random samples is close to the accuracy on their distribution, also after training if there are enough samples", "statement": "The rows of X and Y are n independent samples of an arbitrary distribution. For a model that does not depend on the samples CalculateAccuracy (each of the three kinds) returns no error and a number within e of the accuracy of the model on the distribution (the expected share of right predictions), except with probability at most 2 exp(-2 n e^2); on float64 the number is finite and 2^-52 is added to the error. For a model that is trained on the samples themselves, with a start, an optimizer, a loss, batches, epochs and random numbers that may depend on the samples in any way, Fit succeeds and CalculateAccuracy on the training samples is within e + 2^-52 of the accuracy on the distribution, except with probability at most 2^(64 P) 2 exp(-2 n e^2), where P is the number of weights and biases. So n >= (64 P + j + 1) ln 2 / (2 e^2) samples are enough for probability 2^-j.", "quantifier": "all distributions, all n > 0 (n times the number of outputs at most 2^53), all models (after training: without sigmoid layers), kinds of accuracy, precisions, errors e >= 0, ways of training; float64 with any math library accurate to one ulp, and exact numbers for the first part", "why_tests_cant": "it is about the probability of an event for all distributions and about the data the test did not see", "anchors": ["model.go:321-357", "accuracy.go:13-67", "model.go:213-301"]}
{"id": "C142", "title": "Loading: an accepted file costs no more memory than its length, a refused file of 57 bytes can cost 32 EiB", "statement": "If LoadLayer or LoadModel accepts the bytes, the numbers it has allocated take no more bytes than it has read. If LoadModel refuses them, the numbers it has allocated take at most the length of the buffer plus 8 (2^31-1)^2 bytes (one matrix of the largest size a file can name). The same holds of LoadFile and the length of the file. The second bound is nearly reached: the sizes are believed before any number is read, so for all r, c from 1 to 2^31-1 a layer of 27 bytes (a model of 57 bytes) without a single weight behind it makes LoadLayer (LoadModel) allocate r c numbers before it reports the end of the file. That a file costs at most its length is therefore false of refused files.", "quantifier": "all byte strings, all states of memory with nothing stored at free addresses, all float semantics; forged files: all sizes, types and other header fields", "why_tests_cant": "a test with forged sizes needs the memory, and a bound for all files is not reached by trying files", "anchors": ["layer_data.go:122-202", "layer_data.go:205-261", "model_data.go:177-308", "model_data.go:311-347", "matrix.go:45-57"]}
{"id": "C143", "title": "How far a change of the inputs can move the outputs, and inputs around which Predict cannot change its answer", "statement": "If every entry of the inputs of a model changes by at most d, every output of Forward changes by at most K d, where K is the product over the layers of the largest sum of magnitudes of the weights of a unit, times 1 for ReLU, linear and dropout layers, 1/4 for sigmoid, max(1, |slope|) for leaky ReLU and 1/2 for softmax. For one linear layer the constant cannot be improved. If on an input the class leads all others by more than 2 K d and is larger than K d, Predict returns this class for every input within d; an output further from 1/2 than K d gets the same yes/no answer. On float64 the class is the same if the lead is more than 2 (K d + e) and rounding costs at most e on the changed input.", "quantifier": "all networks of all depths and layer types, all inputs and changes; exact numbers, and float64 with any math library accurate to one ulp", "why_tests_cant": "it speaks about every input in a region of space", "anchors": ["model.go:143-169", "model.go:340-357", "network.go:88-117", "activation.go:12-22", "activation.go:41-51", "activation.go:69-82", "activation.go:100-115"]}
{"id": "C144", "title": "How far training on float64 can be from training in exact arithmetic", "statement": "Take the arithmetic of real numbers that each carry a bound on the distance of the float64 standing for them: every operation gives the exact result and the bound that follows from the bounds of its operands and one rounding (nothing is added where the exact result is itself a float64). If gradient descent over the batches of Fit is carried out in this arithmetic, from the float64 parameters, data and random numbers, and no comparison (the sides of ReLU and leaky ReLU, dropout masks, clipping, the sign in the mean absolute error, one-hot targets) is left in doubt by the bounds, then Fit on float64 succeeds, uses the same random numbers, and every weight and bias for which the computation met no overflow is finite and within its bound of the weight or bias that gradient descent in exact arithmetic from the same start gives. This covers all layers except sigmoid, all losses, SGD with decay and momentum, and Adam if math.Pow has a known relative error for integral exponents.", "quantifier": "all models without sigmoid layers, losses, optimizers, data sets, numbers of epochs and batch sizes with logging off; any math library accurate to one ulp for exp, and for Adam any known accuracy of math.Pow", "why_tests_cant": "exact arithmetic cannot be run, and a test sees the rounding errors of a few trainings only", "anchors": ["model.go:143-169", "model.go:172-211", "model.go:214-301", "optimizers.go:96-165", "optimizers.go:225-296", "loss.go:28-356", "activation.go:12-115", "network.go:88-147"]}
{"id": "C145", "title": "Training with a small rate goes downhill at every epoch, and its gradients tend to zero", "statement": "Let a model have linear, ReLU, leaky ReLU and softmax layers and let the objective be the squared error, or the cross-entropy of a last softmax layer against one-hot targets. For every bound R there is a rate eta such that for every rate up to eta and every number T of epochs of Fit on the whole data set with plain SGD: if after each of the epochs 0 to T the parameters lie in [-R, R] and no ReLU or leaky ReLU unit has changed sides on any sample, then the gradient used in every epoch is the exact gradient of the objective, every epoch lowers the objective by at least half the rate times the squared length of the gradient, and one of the first T gradients has squared length at most 2 (initial objective) / (rate T). If this goes on for ever the gradients tend to 0. The conditions do hold at first: if no unit starts at its kink there are eta and tau such that the conclusion holds for every rate up to eta and every T with rate T at most tau.", "quantifier": "all networks of these layers, all depths, sizes and parameters, all data, all bounds, all rates below the threshold, all numbers of epochs", "why_tests_cant": "it speaks about a limit, about every small enough rate and about every network; a run shows one rate and finitely many epochs", "anchors": ["model.go:214-301", "network.go:88-117", "loss.go:54-105", "loss.go:218-280", "optimizers.go:96-165", "network.go:120-147"]}
{"id": "C146", "title": "A log file tells what was logged, up to the sixth decimal", "statement": "The bytes that the loggers write determine the number of lines, the time of each, whether it is about the training data, the validation data, an error or a version, its epoch, stage, error or version, and its loss and accuracy up to the sixth decimal - although the five bytes of the version in a warning come from a file and may contain newlines. %f prints a finite float64 as the nearest numeral with six decimals, so that numbers printed alike have the same sign and differ by at most 10^-6; every number of magnitude up to 5 10^-7 is printed as 0.000000 or -0.000000. With at most 500000 answers the number of right ones can be told from the accuracy. Fit under the hypotheses of C82 writes exactly one text for given times, whose lines are the losses and accuracies at the end of the epochs to be logged. The line for an epoch is the time followed by 'Epoch: e, Loss: l, Accuracy: a', with 'Validation' before the last two words if it is about the validation data. InitLogger with a file adds to the file and writes nothing to stdout whatever verbose says.", "quantifier": "all logs, times, float64 values, models, data sets and math libraries accurate to one ulp; all old contents of the log file", "why_tests_cant": "injectivity over all logs and all 2^64 numbers cannot be tried", "anchors": ["nn.go:28-55", "model.go:263-297", "model_data.go:195-198", "accuracy.go:13-67", "optimizers.go:71-81", "optimizers.go:202-209"]}
{"id": "C147", "title": "What the iris example makes of its data file", "statement": "ReadAll of encoding/csv returns plain records (no quote, comma, newline or carriage return in a field) as they stand in the file, whatever ends the lines and whether there are blank lines, and fails if two of them differ in the number of fields. ParseFloat makes of a decimal number, with or without sign, point and exponent, the nearest float64, so that a number printed by %f is read back up to half of the sixth decimal and one rounding. TestIris with the file of the repository reports nothing and trains on its 150 records, in some order, with the numbers in the file rounded to float64 as inputs and the classes 0, 1 and 2 for the first, second and third fifty. On any other file ReadAll accepts, every class name but Iris-setosa and Iris-versicolor counts as class 2, and records with fewer than five fields make it panic. A file ReadAll rejects goes unnoticed, because the wrong error is tested: the test reports nothing, and all that is logged is that Fit could not do a forward pass.", "quantifier": "all files of plain records, numerals, shuffles, optimizers, worlds and math libraries", "why_tests_cant": "the test looks at no result and passes on a corrupt file, and the files are unbounded", "anchors": ["examples/iris_test.go:14-57", "examples/iris_test.go:59-80", "misc.go:77-89", "nn.go:28-55"]}
{"id": "C148", "title": "What training cannot change", "statement": "In exact arithmetic, with any loss, layers other than sigmoid ones, data, batch size and number of epochs: Fit with SGD, with or without momentum and decay, keeps v times the weights of the first layer for every vector v orthogonal to all training inputs, so that in directions without data the weights stay as they were drawn. An input that is 0 in all samples keeps its weights with Adam too. In a softmax layer, last or not, the weights of each input added up over the outputs and the sum of the biases are kept by SGD, for a last layer trained with cross-entropy if the targets are one-hot; Adam does not keep them. A model without dropout that predicts all targets exactly is not changed at all by training on the mean squared error, whatever the optimizers.", "quantifier": "all models, data sets, batch sizes, numbers of epochs, optimizers without velocity at the start and random numbers", "why_tests_cant": "a statement about all directions, data and lengths of training; in floating point the sums drift by rounding, so a test cannot tell a wrong gradient from a rounding error", "anchors": ["model.go:214-300", "network.go:121-155", "network.go:587-700", "loss.go:81-105", "optimizers.go:96-175", "optimizers.go:225-296"]}
{"id": "C149", "title": "Equal inputs and equal outputs stay equal, dropout units need not", "statement": "Fit, in float64 arithmetic to the last bit, with any loss, layers other than sigmoid ones, optimizers, batch size and number of epochs: two inputs with the same values in all samples and the same weights keep the same weights. Two outputs with the same targets, weights and bias keep the same weights and bias, of a softmax layer if it is trained with cross-entropy. Both hold together with C101 for all pairs of inputs, units and outputs at once. This needs optimizers in the same state for both, as at the start. For the units of a dropout layer the claim of C101 is false: if one of two equal units is dropped, only the other one learns.", "quantifier": "all models, data sets, numbers of epochs, batch sizes, optimizer states and random numbers, and all interpretations of float64 arithmetic", "why_tests_cant": "equality to the last bit over all data and all lengths of training", "anchors": ["model.go:214-300", "network.go:92-155", "network.go:653-700", "network.go:762-860", "optimizers.go:96-175", "optimizers.go:225-296"]}
{"id": "C150", "title": "InitLayers keeps the signal's strength and breaks ties", "statement": "InitLayers on a model with zero biases, with independent draws of NormFloat64 from the standard normal law (or any symmetric law of variance 1), and then a forward pass in inference mode, over the reals: after every layer the expected mean square of the signal is that of the input row times the product of the gains of the layers passed, whatever their sizes. The gain is 1 for hidden and dropout layers, 1 + Slope^2 for leaky ones, and 2 for linear ones, since Init of a LinearLayer uses the same sqrt(2/InputSize): linear layers double the power of the signal. Almost surely, the weights InitLayers gives a layer are all different and none is 0, so that no two units start alike. Each unit of the first layer is active for a given non-zero input row with probability one half. Models with sigmoid or softmax layers before the point looked at are not covered.", "quantifier": "all models of hidden, dropout, linear and leaky layers with zero biases, all sizes and depths, inputs, and sources of independent draws", "why_tests_cant": "expectations and almost sure statements over a continuous distribution; tests only see some random initialisations", "anchors": ["network.go:75-90", "network.go:192-206", "network.go:423-438", "network.go:745-760", "model.go:135-141", "model.go:143-175"]}
{"id": "C151", "title": "Training a model with sigmoid layers", "statement": "What Fit does with a valid model that has sigmoid layers, on data of the right sizes. (a) If the last sigmoid layer whose numbers of inputs and outputs differ has more inputs than outputs (as in any binary classifier that ends in a sigmoid unit), Fit panics in the first batch, for every optimizer, batch size, loss and data. (b) If it has more outputs than inputs and is not the first layer, Fit ends in the first batch with an error about the size of a 0 x 0 matrix, logged as a failed forward pass, and no parameter, optimizer or data has changed (without InitLogger it panics). (c) If it is the first layer, Adam and SGD with momentum reject the gradients and Fit returns an error with the parameters unchanged, and SGD without momentum panics. (d) If all sigmoid layers are square and not the first layer, Fit never fails, and its steps are given exactly: a sigmoid layer's gradient G is computed from its input instead of its output, its weights move along G^T G instead of V^T G (V the input), and the layer below it sees G in place of its own outputs. (e) Therefore, over the reals and whatever the data and targets: SGD never changes W_ij - W_ji in such a layer and never increases v^T W v for any v, hence no diagonal weight; Adam never increases a diagonal weight.", "quantifier": "all models with sigmoid layers, all sizes, depths, optimizers and their states, losses, data, batch sizes and numbers of epochs; (e) over the reals", "why_tests_cant": "infinitely many shapes and data sets; that a weight can never grow is a statement about all of them", "anchors": ["network.go:343-368", "activation.go:41-66", "model.go:172-211", "model.go:214-300", "optimizers.go:96-180", "optimizers.go:225-296"]}
{"id": "C152", "title": "What training with dropout optimises", "statement": "A model whose only dropout layer (rate d) comes before its last layer, which is linear; exact arithmetic; the mask drawn from independent uniform numbers. (a) In a training forward pass, the mean of every prediction over the masks is the prediction without dropout, and the mean of the squared errors (per sample, divided by the number of outputs) is the squared error without dropout plus d/(1-d) times the sum of the squares of the last layer's weights, each times the squares of its signals. (b) After Fit for one epoch on one batch, with MSE and SGD without momentum, the means of the last layer's new weights and biases are a step of gradient descent at the current rate on that penalised objective. The means of the new weights and biases of every layer below, the dropout layer included, are a step along the gradient of that objective back-propagated through the network without dropout, but shortened by the factor 1-d, because Backward lacks the factor 1/(1-d) of Forward. The derivatives named here are proved to be the partial derivatives of the objective.", "quantifier": "all such models (any depth, sizes, activations without sigmoid below), all data and targets, all rates 0 <= d < 1, all learning rates and decays, all probability spaces with an independent uniform source", "why_tests_cant": "a mean over all masks of a real-valued update, for all models and data; sampling only estimates it", "anchors": ["network.go:762-800", "network.go:831-863", "model.go:143-168", "model.go:172-211", "model.go:214-300", "optimizers.go:96-180", "binomial.go:1-60"]}
{"id": "C153", "title": "Rescaling a hidden unit, and the balance that training keeps", "statement": "In exact arithmetic. (a) Multiply the incoming weights and the bias of one unit (ReLU, leaky ReLU, dropout or linear, not in the last layer) by c > 0 and divide its outgoing weights by c: Forward returns the same predictions for all inputs, in inference and, with the same random numbers, in training. (b) During Fit with SGD without momentum at the same pace in layers k and k+1, at every batch the scalar product of a unit's incoming weights and bias with their change equals that of its outgoing weights with their change, times 1-d for a dropout layer of rate d (the factor that Backward lacks). So the sum of squares of the incoming weights and bias, minus that of the outgoing weights (times 1-d for dropout), changes over the whole of Fit by exactly the same expression in the changes, summed over the batches: nothing of first order in the learning rate. (c) In linear layers this holds for the products of any two units.", "quantifier": "all models without sigmoid layers, all depths, sizes, losses, data, batch sizes, numbers of epochs, learning rates and decays, masks; leaky units with slope > 0; over the reals", "why_tests_cant": "an exact law for all models and all runs of training", "anchors": ["network.go:92-150", "network.go:209-258", "network.go:440-500", "network.go:762-800", "network.go:831-863", "model.go:143-168", "model.go:172-211", "model.go:214-300", "optimizers.go:96-180"]}
{"id": "C154", "title": "Exactly which files LoadModel accepts, and what saving the loaded model again writes", "statement": "LoadModel accepts a byte string and leaves `rest` unread if and only if the string is F ++ rest, where F is: NNML, any 5 bytes as version (this version, if there is no logger), a signed byte for the number of layers, any number of inputs, the number of outputs of the last layer (0 without layers), a loss code from 0 to 3, any accuracy code, a precision that is not below 0, an optimizer code 0 or 1, a signed byte for the number of optimizer values, that many values with any names of up to 127 bytes, and that many layers of known type with sizes from 1 to 2^31-1, each with as many inputs as the one before has outputs; negative counts mean none. Nothing else is looked at: not the number of inputs, the names and numbers for the optimizer, slopes, dropout rates, weights. LoadLayer accepts exactly the layers of known type with sizes from 1 to 2^31-1. How a string splits into file and rest is determined, so no accepted file is the beginning of another. Saving the loaded model writes F with these changes and no others: the version becomes this one, negative counts become 0, the number of inputs that of the first layer; for the optimizer exactly its own names are listed, each with the last number given in F or 0; slopes of layers that are not leaky and dropout rates of layers without dropout become 0. What is written is again such a file, and loading and saving it once more changes no byte (for the same order of the map).", "quantifier": "all byte strings, all states, all orders of iteration over the map of optimizer values", "why_tests_cant": "characterises the infinite set of accepted files in both directions", "anchors": ["model_data.go:53-131", "model_data.go:135-173", "model_data.go:177-308", "model_data.go:311-347", "layer_data.go:57-261"]}
{"id": "C155", "title": "The coordinate system of the inputs: irrelevant to SGD, relevant to Adam", "statement": "In exact arithmetic, let Q be a matrix with orthonormal rows (a rotation, a reflection, or an embedding into a space with more coordinates). Train a model with SGD (any momentum and decay) on inputs A, and, with the same random numbers, the model whose first layer has the weights Q\u1d40W instead of W on inputs AQ. Both calls of Fit succeed; afterwards the first-layer weights and velocities of the second model are Q\u1d40 times those of the first, everything else is equal, and Predict returns the same for any inputs V in the first and VQ in the second. For Adam the same claim is false: one step on one sample with a rotation by the angle with cosine 3/5 refutes it.", "quantifier": "all models without sigmoid layers (dropout layers included), all depths, sizes, losses, data, batch sizes, numbers of epochs, learning rates, momenta and decays, all Q; over the reals", "why_tests_cant": "an exact symmetry for all rotations and all runs of training; with rounding it holds only approximately", "anchors": ["network.go:92-150", "network.go:762-800", "model.go:143-168", "model.go:172-211", "model.go:214-300", "optimizers.go:96-180", "optimizers.go:220-330"]}
{"id": "C156", "title": "Of all exact solutions of a linear problem, SGD finds the one nearest to the initial weights", "statement": "In the situation of C122 (one linear layer, squared error, plain SGD, batches of any size, a learning rate of at most c/(2*sum(1+|x|^2)) over a batch, data that can be fitted exactly, in general in many ways), the weights and biases after t epochs of Fit tend to limits (Wl,bl) as t grows. The limits fit the data exactly, and for every exact fit (Ws,bs) the squared distance from the initial parameters to (Ws,bs) is that to (Wl,bl) plus that from (Wl,bl) to (Ws,bs): the limit is the exact solution nearest to the start, whatever the batch size and the rate. The predictions for all inputs tend to those of the limit. From zero parameters (InitLayers not called) the limit is the exact solution with the least sum of squares.", "quantifier": "all starts, sizes, data with an exact fit, batch sizes, rates within the bound; all inputs of the predictions; real arithmetic", "why_tests_cant": "a limit over infinitely many epochs, and a comparison with infinitely many solutions", "anchors": ["model.go:Fit", "loss.go:MeanSquaredLoss", "network.go:LinearLayer", "optimizers.go:SGDOptimizer"]}
{"id": "C157", "title": "SGD approaches the nearest exact linear solution at a geometric rate", "statement": "For given inputs, number of outputs, batch size and learning rate (within the bound of C122) there is a factor q with 0<=q<1 such that, for every model with one linear layer, plain SGD and squared error, whatever its initial weights, and for all outputs that can be fitted exactly, every epoch of Fit multiplies the squared distance from the weights and biases to the nearest exact solution (Wl,bl) of C156 by at most q: after t epochs it is at most q^t times the initial one. The squared difference between the trained model's prediction for any input v and that of (Wl,bl) is at most (1+|v|^2)*q^t*d with d the initial squared distance. So the error on the training data falls geometrically, also when the data leave the solution undetermined and the squared error is not strictly convex.", "quantifier": "all inputs, sizes, batch sizes and rates within the bound; then all starts, outputs with an exact fit, numbers of epochs, and inputs of predictions; real arithmetic", "why_tests_cant": "one factor for infinitely many starts and outputs and all numbers of epochs", "anchors": ["model.go:Fit", "loss.go:MeanSquaredLoss", "network.go:LinearLayer", "optimizers.go:SGDOptimizer"]}
{"id": "C158", "title": "The arithmetic of the batches is right for every batch size, on 64-bit integers and float64", "statement": "With 64-bit integers that wrap around, and the bounds of a batch computed through float64 as in model.go:235-236, Fit on at most 2^52 samples does, for every batch size b from 0 to 2^63-1, what it does with integers of any size: gradient descent over the batches of b samples, in order, each once per epoch, and for b = 0 and b >= number of samples one batch of all. No product wraps around and no rounding of a float64 moves a bound. For negative b down to minus the number of samples Fit (without logging) does nothing and returns nil; for smaller b, down to -2^63, it panics at the first batch.", "quantifier": "all batch sizes in the range of int, all models, data sets of 1 to 2^52 samples, epochs; float64 arithmetic", "why_tests_cant": "2^64 batch sizes", "anchors": ["model.go:Fit"]}
{"id": "C159", "title": "Linear regression with noise: SGD forgets its start and tends to a limit, which need not be the least-squares solution", "statement": "One linear layer, squared error, plain SGD with a constant rate within the bound of C122, batches of any size, any data (no exact fit needed). (a) Two models trained on the same data never move apart, whatever their initial weights; if the inputs determine the parameters, the squared distance between them shrinks per epoch by a factor q<1 that depends only on inputs, batch size and rate. (b) The weights and biases after t epochs tend to limits, the squared distance being at most q^t times the initial one; a model that starts at the limits is unchanged by an epoch of Fit. (c) The limit need not have the least squared error: on the samples (0,0), (0,1) in batches of one with rate 1/10, the prediction for input 0 tends to 5/9 from every start, although 1/2 has the smaller error.", "quantifier": "all inputs, outputs, sizes, batch sizes, rates within the bound, starts, numbers of epochs; real arithmetic", "why_tests_cant": "limits and one factor for all starts and outputs", "anchors": ["model.go:Fit", "loss.go:MeanSquaredLoss", "network.go:LinearLayer", "optimizers.go:SGDOptimizer"]}
{"id": "C160", "title": "Inference with fused multiply-add: the error bounds and the predicted classes do not depend on the build", "statement": "A Go compiler may compute x*y + z with one rounding (it does on arm64, ppc64, s390x and riscv64, not by default on amd64); on the path of an inference pass this concerns exactly `sum += m.M[i][n] * b.M[n][j]` in Dot. For float64 and every choice of fused steps, in every layer: (a) the bound of C97 on the error of Dot holds; (b) the bound of C99 on the error of Forward holds, all outputs are finite, and two builds started in the same state give outputs that differ by at most twice the bound; (c) Predict returns the class, or the yes/no answer, that exact arithmetic gives, wherever the margin exceeds the bound; (d) with no step fused, Forward and Predict are those of the model used elsewhere; (e) builds can differ: for some finite matrices Dot gives an infinite entry without fusing and a finite one with fusing; (f) where every product of two finite entries is a float64, as with small integers, all builds of Dot give the same bits, including infinities, NaN and the signs of zeros.", "quantifier": "all networks, batches, sizes, depths and finite parameters within range, all choices of fused steps per layer, entry and step; IEEE 754 binary64", "why_tests_cant": "a test runs on one processor with one choice of fused steps", "anchors": ["matrix.go:Dot", "network.go:Forward", "model.go:Forward", "model.go:Predict"]}
{"id": "C161", "title": "On separable data training never settles; on other data the loss stays away from 0", "statement": "In the situation of C111 (one softmax layer, cross-entropy, one-hot targets, full-batch SGD, rate within the bound), let there be two classes or more. If the data is linearly separable, then for every M there is a T such that after Fit with any t >= T epochs the score (pre-activation) of every training sample in its class exceeds its score in every other class by more than M, some weight or bias is above M in absolute value, and, if samples of two classes occur, some weight is. So the parameters of a model that learns perfectly have no limit, although its predictions do (C112). If the data is not linearly separable, then after Fit with any number of epochs the mean cross-entropy is at least log 2 / r for r samples. On any data, separable or not, the squared distance of the weights and biases from their start after t epochs is at most 2 * rate * t times the decrease of the mean cross-entropy, so the growth is no faster than the square root of t. Fit succeeds in all cases.", "quantifier": "All data sets, starts, rates within the bound, M, all t >= T (separable) or all t (not separable); real arithmetic.", "why_tests_cant": "A test sees finitely many epochs; it cannot see that the parameters have no bound, nor that the loss never falls below a level.", "anchors": ["model.go:Fit", "loss.go:CrossEntropyLoss", "network.go:SoftmaxLayer", "optimizers.go:SGDOptimizer"]}
{"id": "C162", "title": "Softmax training tends to best parameters if there are any, and otherwise exceeds every bound", "statement": "In the situation of C111 (one softmax layer, cross-entropy, one-hot targets, full-batch SGD, rate within the bound): (a) if some weights and biases have the least mean cross-entropy on the training data, then there are weights W and biases b with the least cross-entropy such that for every eps > 0 there is a T such that after Fit with any t >= T epochs every weight and bias of the model is within eps of that of W and b; (b) if no weights and biases have the least cross-entropy, then for every M there is a T such that after Fit with any t >= T epochs some weight or bias is above M in absolute value; (c) linearly separable data of two classes or more is of the second kind. So the trained parameters never oscillate or wander in a bounded region: they have a limit or leave every bounded region for good. Fit succeeds in all cases.", "quantifier": "All data sets, starts, rates within the bound, eps > 0, M, and all t >= T; real arithmetic.", "why_tests_cant": "A limit over infinitely many epochs, for all data and starts; a test sees finitely many epochs of one run and cannot tell slow growth from convergence.", "anchors": ["model.go:Fit", "loss.go:CrossEntropyLoss", "network.go:SoftmaxLayer", "optimizers.go:SGDOptimizer"]}
{"id": "C163", "title": "The trained parameters of a softmax classifier have a limit if and only if the classes overlap", "statement": "Say that the classes of a data set overlap if no weights and biases score every sample at least as high in its class as in every other class, except those that score each sample the same in all classes. (a) For one-hot targets some weights and biases have the least mean cross-entropy if and only if the classes overlap. (b) In the situation of C111 (one softmax layer, full-batch SGD, rate within the bound), if the classes overlap, the weights and biases after t epochs tend to ones with the least cross-entropy; (c) if they do not overlap, for every M some weight or bias is above M in absolute value after any number of epochs from some T on. This includes data that is not strictly separable, with samples of two classes on the border, and (d) every data set in which some class has no sample. So the data alone decides which of the two happens: neither the start nor the rate does.", "quantifier": "All data sets, starts, rates within the bound, M and all t >= T; real arithmetic.", "why_tests_cant": "An equivalence about limits over infinitely many epochs for all data sets; a test cannot tell slow growth from convergence.", "anchors": ["model.go:Fit", "loss.go:CrossEntropyLoss", "network.go:SoftmaxLayer", "optimizers.go:SGDOptimizer"]}
{"id": "C164", "title": "With overlapping classes the trained predictions depend on the data only", "statement": "Let the classes of a data set overlap (C163). Then there are probabilities P for the training samples such that: all weights and biases with the least mean cross-entropy predict P; and for every softmax model trained on the data with cross-entropy and full-batch SGD at a rate within the bound of C111, whatever its initial weights and biases, its rate and the state of the program, for every eps > 0 there is a T such that after Fit with any t >= T epochs, without error, all its predictions for the training samples are within eps of P.", "quantifier": "All overlapping data sets, models, starts, rates within the bound, eps > 0 and all t >= T; real arithmetic.", "why_tests_cant": "A test compares finitely many starts after finitely many epochs, within a tolerance.", "anchors": ["model.go:Fit", "loss.go:CrossEntropyLoss", "network.go:SoftmaxLayer", "optimizers.go:SGDOptimizer"]}
{"id": "C165", "title": "The mean predicted probability of each class tends to its frequency", "statement": "In the situation of C111 (one softmax layer, cross-entropy, one-hot targets, full-batch SGD, rate within the bound), on any data, overlapping or separable: for every eps > 0 there is a T such that after Fit with any t >= T epochs, without error, the mean over the training samples of the predicted probability of each class differs by less than eps from the share of the samples that have this class; and for every input, the mean of the predicted probability times this input differs by less than eps from the mean of the target times this input.", "quantifier": "All data sets, starts, rates within the bound, eps > 0 and all t >= T; real arithmetic.", "why_tests_cant": "A limit over infinitely many epochs, for all data and starts; wrong signs or factors in a gradient can leave the loss falling and this false.", "anchors": ["model.go:Fit", "loss.go:CrossEntropyLoss", "network.go:SoftmaxLayer", "optimizers.go:SGDOptimizer"]}
{"id": "C166", "title": "With overlapping classes training tends to the best parameters nearest to the start", "statement": "In the situation of C111 (one softmax layer, cross-entropy, one-hot targets, full-batch SGD, rate within the bound), if the classes overlap (C163), the weights and biases after t epochs tend to weights W and biases b with the least mean cross-entropy such that, for all W' and b' with the least mean cross-entropy, the squared distance from the start to (W', b') is that from the start to (W, b) plus that from (W, b) to (W', b'). So the limit is, of all best parameters, the one nearest to the initial ones, and the learning rate has no influence on it.", "quantifier": "All overlapping data sets, starts, rates within the bound and all numbers of epochs from some T on, for every tolerance; real arithmetic.", "why_tests_cant": "A limit over infinitely many epochs compared with all other best parameters, for all data and starts.", "anchors": ["model.go:Fit", "loss.go:CrossEntropyLoss", "network.go:SoftmaxLayer", "optimizers.go:SGDOptimizer"]}
