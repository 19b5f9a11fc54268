{
 "claims": [
  {
   "property": "C01",
   "status": "proved",
   "theorems": [
    "NN.C01_newMatrix_rejects",
    "NN.C01_newMatrix_accepts",
    "NN.C01_newMatrix_error_iff"
   ],
   "note": ""
  },
  {
   "property": "C02",
   "status": "proved",
   "theorems": [
    "NN.C02_set",
    "NN.C02_get",
    "NN.C02_too_large",
    "NN.C02_history"
   ],
   "note": ""
  },
  {
   "property": "C03",
   "status": "partial",
   "theorems": [
    "NN.C03_negative_row_panics",
    "NN.C03_negative_col_panics",
    "NN.C03_false",
    "NN.C03_upper_bounds_partial"
   ],
   "note": "False of the code: negative indices panic (C03_negative_row_panics, C03_negative_col_panics, C03_false). Proved: indices at or beyond the upper bound give errors."
  },
  {
   "property": "C04",
   "status": "partial",
   "theorems": [
    "NN.C04_ragged_accepted_then_panics",
    "NN.C04_false",
    "NN.C04_rectangular_partial",
    "NN.C04_shares_storage",
    "NN.C04_writes_visible"
   ],
   "note": "False of the code: ragged slices are accepted and reading them panics (C04_ragged_accepted_then_panics, C04_false). Proved: rectangular slices give well-formed matrices; storage is shared."
  },
  {
   "property": "C05",
   "status": "proved",
   "theorems": [
    "NN.C05_add",
    "NN.C05_sub",
    "NN.C05_neg",
    "NN.C05_addScalar",
    "NN.C05_mulScalar",
    "NN.C05_powScalar"
   ],
   "note": ""
  },
  {
   "property": "C06",
   "status": "proved",
   "theorems": [
    "NN.C06_add_sub",
    "NN.C06_dot"
   ],
   "note": ""
  },
  {
   "property": "C07",
   "status": "proved",
   "theorems": [
    "NN.C07_dot",
    "NN.C07_dot_is_product",
    "NN.C07_dot_assoc",
    "NN.C07_dot_distrib",
    "NN.C07_dot_transpose"
   ],
   "note": ""
  },
  {
   "property": "C08",
   "status": "proved",
   "theorems": [
    "NN.C08_transpose",
    "NN.C08_involutive"
   ],
   "note": ""
  },
  {
   "property": "C09",
   "status": "proved",
   "theorems": [
    "NN.C09_sum_axis0",
    "NN.C09_sum_axis1",
    "NN.C09_other_axis_panics",
    "NN.C09_grand_total"
   ],
   "note": ""
  },
  {
   "property": "C10",
   "status": "proved",
   "theorems": [
    "NN.C10_equals",
    "NN.C10_equals_real",
    "NN.C10_equivalence"
   ],
   "note": ""
  },
  {
   "property": "C11",
   "status": "proved",
   "theorems": [
    "NN.C11_getRow_shares",
    "NN.C11_setRow_installs",
    "NN.C11_getColumn_copies",
    "NN.C11_setColumn_copies",
    "NN.C11_wrong_length"
   ],
   "note": ""
  },
  {
   "property": "C12",
   "status": "proved",
   "theorems": [
    "NN.C12_clip",
    "NN.C12_clip_range_idempotent"
   ],
   "note": ""
  },
  {
   "property": "C13",
   "status": "proved",
   "theorems": [
    "NN.C13_relu",
    "NN.C13_leakyRelu",
    "NN.C13_sigmoid",
    "NN.C13_relu_real",
    "NN.C13_sigmoid_real"
   ],
   "note": ""
  },
  {
   "property": "C14",
   "status": "proved",
   "theorems": [
    "NN.C14_softmax",
    "NN.C14_probabilities",
    "NN.C14_shift"
   ],
   "note": ""
  },
  {
   "property": "C15",
   "status": "proved",
   "theorems": [
    "NN.C15_encode",
    "NN.C15_bad_size",
    "NN.C15_bad_label",
    "NN.C15_roundtrip",
    "NN.C15_roundtrip_real"
   ],
   "note": ""
  },
  {
   "property": "C16",
   "status": "partial",
   "theorems": [
    "NN.C16_rowMax_partial",
    "NN.C16_false"
   ],
   "note": "False of the code for rows without a positive entry (C16_false). Proved: first argmax for every row with a positive entry, 0 for every other row."
  },
  {
   "property": "C17",
   "status": "proved",
   "theorems": [
    "NN.C17_threshold",
    "NN.C17_idempotent"
   ],
   "note": ""
  },
  {
   "property": "C18",
   "status": "proved",
   "theorems": [
    "NN.C18_shuffle"
   ],
   "note": ""
  },
  {
   "property": "C19",
   "status": "proved",
   "theorems": [
    "NN.C19_regression",
    "NN.C19_binary",
    "NN.C19_categorical",
    "NN.C19_regression_real",
    "NN.C19_binary_real",
    "NN.C19_categorical_real"
   ],
   "note": ""
  },
  {
   "property": "C20",
   "status": "partial",
   "theorems": [
    "NN.C20_readonly_partial",
    "NN.C20_false"
   ],
   "note": "False of the code: BinaryCategoricalAccuracy thresholds the predictions in place (C20_false). Proved: the other two are read-only; the binary one changes nothing but the predictions."
  },
  {
   "property": "C21",
   "status": "partial",
   "theorems": [
    "NN.C21_row0",
    "NN.C21_mean_partial",
    "NN.C21_false"
   ],
   "note": "False of the code: only row 0 enters the result (C21_false, C21_row0). Proved for one-row batches."
  },
  {
   "property": "C22",
   "status": "proved",
   "theorems": [
    "NN.C22_gradient",
    "NN.C22_gradient_of_forward"
   ],
   "note": ""
  },
  {
   "property": "C23",
   "status": "partial",
   "theorems": [
    "NN.C23_forward_row0",
    "NN.C23_forward_partial",
    "NN.C23_backward_zero",
    "NN.C23_backward_partial",
    "NN.C23_backward_false",
    "NN.C23_forward_false"
   ],
   "note": "False of the code: Forward uses row 0 only (C23_forward_false); Backward is 0 for every Size > 1 because of an integer division (C23_backward_zero, C23_backward_false). Proved: Forward for one row, Backward for Size 1."
  },
  {
   "property": "C24",
   "status": "proved",
   "theorems": [
    "NN.C24_value"
   ],
   "note": "Over the reals; the true-class probability is assumed positive (log)."
  },
  {
   "property": "C25",
   "status": "proved",
   "theorems": [
    "NN.C25_gradient"
   ],
   "note": ""
  },
  {
   "property": "C26",
   "status": "proved",
   "theorems": [
    "NN.C26_value",
    "NN.C26_gradient"
   ],
   "note": ""
  },
  {
   "property": "C27",
   "status": "partial",
   "theorems": [
    "NN.C27_readonly_partial",
    "NN.C27_forward_false",
    "NN.C27_backward_false"
   ],
   "note": "False of the code: Clip overwrites predictions outside [0,1] (C27_forward_false, C27_backward_false). Proved: targets never change, predictions in [0,1] keep their values, MSE/MAE change nothing."
  },
  {
   "property": "C28",
   "status": "proved",
   "theorems": [
    "NN.C28_bad_width",
    "NN.C28_accepts",
    "NN.C28_constructors"
   ],
   "note": ""
  },
  {
   "property": "C29",
   "status": "proved",
   "theorems": [
    "NN.C29_reject",
    "NN.C29_accept",
    "NN.C29_iff"
   ],
   "note": ""
  },
  {
   "property": "C30",
   "status": "proved",
   "theorems": [
    "NN.C30_infer",
    "NN.C30_dropout",
    "NN.C30_width"
   ],
   "note": ""
  },
  {
   "property": "C31",
   "status": "proved",
   "theorems": [
    "NN.C31_batch",
    "NN.C31_predict"
   ],
   "note": "For any two states with the same parameters, any batches, any float semantics; rows that hold the same numbers give the same output rows (Forward without training, and Predict)."
  },
  {
   "property": "C32",
   "status": "proved",
   "theorems": [
    "NN.C32_exact",
    "NN.C32_entries"
   ],
   "note": "Over the reals; entries for any float64 semantics in C32_entries."
  },
  {
   "property": "C33",
   "status": "proved",
   "theorems": [
    "NN.C33_exact"
   ],
   "note": "Over the reals; pre-activations exactly 0 excluded (no derivative)."
  },
  {
   "property": "C34",
   "status": "partial",
   "theorems": [
    "NN.C34_exact_partial",
    "NN.C34_false"
   ],
   "note": "False of the code for slope 0, which the constructor accepts (C34_false). Proved for every slope > 0."
  },
  {
   "property": "C35",
   "status": "proved",
   "theorems": [
    "NN.C35_exact"
   ],
   "note": "Over the reals."
  },
  {
   "property": "C36",
   "status": "proved",
   "theorems": [
    "NN.C36_fused"
   ],
   "note": ""
  },
  {
   "property": "C37",
   "status": "partial",
   "theorems": [
    "NN.C37_actual",
    "NN.C37_panics",
    "NN.C37_false",
    "NN.C37_gradient_false",
    "NN.C37_rest_partial"
   ],
   "note": "False of the code: Backward applies the derivative to the layer input, in place, and panics when the layer is narrower than its input (C37_false, C37_gradient_false, C37_panics, C37_actual)."
  },
  {
   "property": "C38",
   "status": "proved",
   "theorems": [
    "NN.C38_training",
    "NN.C38_inference"
   ],
   "note": "Over the reals, for a source whose draws are uniform on [0,1); the finite resolution of the actual generator is not modelled."
  },
  {
   "property": "C39",
   "status": "partial",
   "theorems": [
    "NN.C39_scaled",
    "NN.C39_exact_partial",
    "NN.C39_false"
   ],
   "note": "False of the code for Dropout > 0: the factor 1/(1-Dropout) is missing (C39_false). Proved: the returned gradients are exactly (1-Dropout) times the true ones, so exact for Dropout 0."
  },
  {
   "property": "C40",
   "status": "proved",
   "theorems": [
    "NN.C40_init",
    "NN.C40_draws",
    "NN.C40_layers"
   ],
   "note": ""
  },
  {
   "property": "C41",
   "status": "proved",
   "theorems": [
    "NN.C41_history",
    "NN.C41_sum",
    "NN.C41_zero_gradient"
   ],
   "note": "Closed form over the reals; the update recursion for any float64 semantics in C41_history."
  },
  {
   "property": "C42",
   "status": "proved",
   "theorems": [
    "NN.C42_history",
    "NN.C42_sum"
   ],
   "note": "Closed form over the reals; the recursion for any float64 semantics in C42_history."
  },
  {
   "property": "C43",
   "status": "partial",
   "theorems": [
    "NN.C43_actual",
    "NN.C43_actual_real",
    "NN.C43_equal_betas_partial",
    "NN.C43_false"
   ],
   "note": "False of the code: the factor 1/(1-Beta1^t) is applied to the second moment, too (C43_actual, C43_actual_real, C43_false). Proved when Beta1 = Beta2."
  },
  {
   "property": "C44",
   "status": "partial",
   "theorems": [
    "NN.C44_stateful_partial",
    "NN.C44_stuck",
    "NN.C44_plain_panics",
    "NN.C44_false"
   ],
   "note": "False of the code: SGD without momentum panics on a gradient with too few columns (C44_plain_panics, C44_false). Proved for Adam and SGD with momentum, in every state that any history can lead to; after a rejected bias gradient every later update with fitting weight gradients is rejected (C44_stuck)."
  },
  {
   "property": "C45",
   "status": "proved",
   "theorems": [
    "NN.C45_sgd_errs",
    "NN.C45_adam_errs",
    "NN.C45_sgd_new",
    "NN.C45_adam_new",
    "NN.C45_type_errs",
    "NN.C45_from_type"
   ],
   "note": ""
  },
  {
   "property": "C46",
   "status": "proved",
   "theorems": [
    "NN.C46_history",
    "NN.C46_call"
   ],
   "note": "Sizes up to 2^53 (they pass through float64). Between the calls anything may happen that keeps existing layer sizes."
  },
  {
   "property": "C47",
   "status": "partial",
   "theorems": [
    "NN.C47_success",
    "NN.C47_failure_partial",
    "NN.C47_false"
   ],
   "note": "False of the code: a negative precision is rejected only after loss, optimizers and accuracy type have been overwritten (C47_false). Proved: the full description of the successful case; the size error changes nothing; the precision error keeps sizes, layers and the old precision."
  },
  {
   "property": "C48",
   "status": "proved",
   "theorems": [
    "NN.C48_forward",
    "NN.C48_built",
    "NN.C48_width"
   ],
   "note": "C48_built is end to end from NewModel/AddLayer histories."
  },
  {
   "property": "C49",
   "status": "proved",
   "theorems": [
    "NN.C49_readonly",
    "NN.C49_history",
    "NN.C49_repeatable"
   ],
   "note": "Targets may be malformed; the input is well-formed or of the wrong width."
  },
  {
   "property": "C50",
   "status": "proved",
   "theorems": [
    "NN.C50_decode",
    "NN.C50_rowMax",
    "NN.C50_width"
   ],
   "note": ""
  },
  {
   "property": "C51",
   "status": "partial",
   "theorems": [
    "NN.C51_exact_partial",
    "NN.C51_weight",
    "NN.C51_bias",
    "NN.C51_mae_zero",
    "NN.C51_false"
   ],
   "note": "exact for all four losses except mean absolute error with output width above 1, where Backward returns zero gradients (integer division) and the claim is proved false"
  },
  {
   "property": "C52",
   "status": "proved",
   "theorems": [
    "NN.C52_batches"
   ],
   "note": ""
  },
  {
   "property": "C53",
   "status": "partial",
   "theorems": [
    "NN.C53_data_partial",
    "NN.C53_no_sigmoid_partial",
    "NN.C53_false"
   ],
   "note": "False of the code: training a model whose first layer is a sigmoid layer overwrites the training inputs (C53_false). Proved: a model whose first layer is of any other kind leaves all four matrices unchanged, also when Fit fails."
  },
  {
   "property": "C54",
   "status": "proved",
   "theorems": [
    "NN.C54_split",
    "NN.C54_none"
   ],
   "note": ""
  },
  {
   "property": "C55",
   "status": "proved",
   "theorems": [
    "NN.C55_well_formed"
   ],
   "note": ""
  },
  {
   "property": "C56",
   "status": "proved",
   "theorems": [
    "NN.C56_lines",
    "NN.C56_off",
    "NN.C56_values"
   ],
   "note": ""
  },
  {
   "property": "C57",
   "status": "partial",
   "theorems": [
    "NN.C57_logged",
    "NN.C57_no_logger",
    "NN.C57_forward",
    "NN.C57_backward",
    "NN.C57_width_partial",
    "NN.C57_false"
   ],
   "note": "False of the code: without InitLogger the error is reported through a nil logger and Fit panics (C57_false, C57_no_logger). Proved: with the logger initialised failures are returned and logged."
  },
  {
   "property": "C58",
   "status": "proved",
   "theorems": [
    "NN.C58_layer_roundtrip"
   ],
   "note": "For every float type with a bit encoding; the encoding of int fields and type codes over float64 is proved exact for the binary64 instance."
  },
  {
   "property": "C59",
   "status": "proved",
   "theorems": [
    "NN.C59_model_roundtrip",
    "NN.C59_predict",
    "NN.C59_finalize"
   ],
   "note": ""
  },
  {
   "property": "C60",
   "status": "partial",
   "theorems": [
    "NN.C60_never_deep",
    "NN.C60_silent",
    "NN.C60_false"
   ],
   "note": "False of the code: the layer count is one signed byte; deeper models are saved without error and never restored (C60_false, C60_never_deep), or silently cut off (C60_silent). Up to 127 layers: C59."
  },
  {
   "property": "C61",
   "status": "partial",
   "theorems": [
    "NN.C61_prefix_partial",
    "NN.C61_false"
   ],
   "note": "False of the code without InitLogger: prefixes of 5 to 8 bytes panic on the version warning (C61_false). Proved with a logger."
  },
  {
   "property": "C62",
   "status": "proved",
   "theorems": [
    "NN.C62_magic",
    "NN.C62_layer_magic",
    "NN.C62_version"
   ],
   "note": ""
  },
  {
   "property": "C63",
   "status": "partial",
   "theorems": [
    "NN.C63_layer",
    "NN.C63_partial",
    "NN.C63_panics",
    "NN.C63_no_logger",
    "NN.C63_false"
   ],
   "note": "False of the code: a negative key length panics (C63_panics), and so does any other version without a logger (C63_no_logger). Proved: with a logger there is no other panic, and LoadLayer never panics. Exhausting memory on huge sizes is not modelled."
  },
  {
   "property": "C64",
   "status": "proved",
   "theorems": [
    "NN.C64_usable"
   ],
   "note": ""
  },
  {
   "property": "C65",
   "status": "proved",
   "theorems": [
    "NN.C65_layer",
    "NN.C65_model"
   ],
   "note": ""
  },
  {
   "property": "C66",
   "status": "proved",
   "theorems": [
    "NN.C66_refused",
    "NN.C66_exactly",
    "NN.C66_model",
    "NN.C66_stops"
   ],
   "note": ""
  },
  {
   "property": "C67",
   "status": "partial",
   "theorems": [
    "NN.C67_live",
    "NN.C67_partial",
    "NN.C67_false"
   ],
   "note": "False of the code: the record refers to the layers' storage (C67_false, C67_live). Proved: equal output while the parameters are unchanged."
  },
  {
   "property": "C68",
   "status": "partial",
   "theorems": [
    "NN.C68_roundtrip",
    "NN.C68_crash_partial",
    "NN.C68_false"
   ],
   "note": "False of the code without InitLogger, because LoadFile panics on a prefix of 5 to 8 bytes (C68_false). Round trip proved; crash behaviour proved with a logger. One Read is assumed to return the whole file."
  },
  {
   "property": "C69",
   "status": "partial",
   "theorems": [
    "NN.C69_create_partial",
    "NN.C69_lost",
    "NN.C69_false"
   ],
   "note": "False of the code: the file is truncated before serialization (C69_false, C69_lost). Proved: nothing changes if the file cannot be created."
  },
  {
   "property": "C70",
   "status": "proved",
   "theorems": [
    "NN.C70_fit"
   ],
   "note": "For any float64 semantics with exact small integers (FltInt). Logging off; no sigmoid layer."
  },
  {
   "property": "C71",
   "status": "proved",
   "theorems": [
    "NN.C71_build",
    "NN.C71_make",
    "NN.C71_train",
    "NN.C71_optim"
   ],
   "note": ""
  },
  {
   "property": "C72",
   "status": "proved",
   "theorems": [
    "NN.C72_decrease",
    "NN.C72_mae_stuck"
   ],
   "note": ""
  },
  {
   "property": "C73",
   "status": "proved",
   "theorems": [
    "NN.C73_converge"
   ],
   "note": ""
  },
  {
   "property": "C74",
   "status": "proved",
   "theorems": [
    "NN.C74_unbiased",
    "NN.C74_count"
   ],
   "note": ""
  },
  {
   "property": "C75",
   "status": "proved",
   "theorems": [
    "NN.C75_layer",
    "NN.C75_model",
    "NN.C75_finalized"
   ],
   "note": "The layout is specified independently of the encoder in Spec/Format.lean. Finding: the slope and dropout fields described as optional are always written."
  },
  {
   "property": "C76",
   "status": "partial",
   "theorems": [
    "NN.C76_deterministic",
    "NN.C76_resume_partial",
    "NN.C76_false"
   ],
   "note": "C76_deterministic: training is a function of content. C76_claim (training can be resumed after save and load) is refuted by C76_false (momentum is not saved); C76_resume_partial proves it for SGD without decay and momentum."
  },
  {
   "property": "C77",
   "status": "partial",
   "theorems": [
    "NN.C77_panics",
    "NN.C77_noop",
    "NN.C77_false"
   ],
   "note": "false of the code (C77_false); proved what happens instead in the two ranges of the batch size"
  },
  {
   "property": "C78",
   "status": "partial",
   "theorems": [
    "NN.C78_prefix",
    "NN.C78_extra",
    "NN.C78_missing",
    "NN.C78_false"
   ],
   "note": "false of the code (C78_false); proved what happens with too many and with too few inputs"
  },
  {
   "property": "C79",
   "status": "proved",
   "theorems": [
    "NN.C79_init",
    "NN.C79_then_fit",
    "NN.C79_then_load"
   ],
   "note": "all flags and states"
  },
  {
   "property": "C80",
   "status": "partial",
   "theorems": [
    "NN.C80_short",
    "NN.C80_false"
   ],
   "note": "false of the code (C80_false); proved which model is returned"
  },
  {
   "property": "C81",
   "status": "proved",
   "theorems": [
    "NN.C81_loss",
    "NN.C81_accuracy"
   ],
   "note": "For every float semantics (accuracy: those in which integers up to 2^53 are exact). Hypotheses: at least one layer, loss size equal to the number of outputs, data of matching shape, at most 2^53 outputs."
  },
  {
   "property": "C82",
   "status": "proved",
   "theorems": [
    "NN.C82_fit",
    "NN.C82_unaffected"
   ],
   "note": "For every float semantics in which integers up to 2^53 are exact. Hypotheses: no sigmoid layer (SigmoidLayer.Backward is wrong, see C37), one of the three accuracy types, loggers installed, loss size equal to the number of outputs, rows plus batch size at most 2^53."
  },
  {
   "property": "C83",
   "status": "proved",
   "theorems": [
    "NN.C83_sigmoid",
    "NN.C83_saturates"
   ],
   "note": "On the bit-level model of float64, for every math.Exp that meets the laws of Libm (one ulp)."
  },
  {
   "property": "C84",
   "status": "partial",
   "theorems": [
    "NN.C84_range",
    "NN.C84_softmax_partial",
    "NN.C84_overflow",
    "NN.C84_underflow",
    "NN.C84_false"
   ],
   "note": "The full claim is false of the code (C84_false, C84_overflow, C84_underflow); C84_softmax_partial is the true part. On the bit-level model of float64, for every math.Exp that meets the laws of Libm (one ulp)."
  },
  {
   "property": "C85",
   "status": "partial",
   "theorems": [
    "NN.C85_bce_partial",
    "NN.C85_certain",
    "NN.C85_false",
    "NN.C85_model"
   ],
   "note": "The full claim is false of the code (C85_false, C85_certain, C85_model); C85_bce_partial is the true part. On the bit-level model of float64, for every math.Exp and math.Log that meet the laws of Libm (one ulp)."
  },
  {
   "property": "C86",
   "status": "proved",
   "theorems": [
    "NN.C86_ce_loss"
   ],
   "note": "On the bit-level model of float64, for every math.Log that meets the laws of Libm (one ulp)."
  },
  {
   "property": "C87",
   "status": "partial",
   "theorems": [
    "NN.C87_zero",
    "NN.C87_ce_gradient_partial",
    "NN.C87_false"
   ],
   "note": "The full claim is false of the code (C87_false, C87_zero); C87_ce_gradient_partial is the true part."
  },
  {
   "property": "C88",
   "status": "partial",
   "theorems": [
    "NN.C88_one",
    "NN.C88_dropout_partial",
    "NN.C88_false"
   ],
   "note": "Full claim C88_claim is false of the code (C88_false: the accepted rate 1 makes every entry NaN, C88_one). C88_dropout_partial proves it for all rates below 1, with outputs not negative. Float64 semantics as in DESIGN.md."
  },
  {
   "property": "C89",
   "status": "partial",
   "theorems": [
    "NN.C89_sgd_partial",
    "NN.C89_adam_partial",
    "NN.C89_layer_partial",
    "NN.C89_false",
    "NN.C89_update",
    "NN.C89_fit"
   ],
   "note": "Full claim C89_claim is false of the code (C89_false). C89_sgd_partial, C89_adam_partial, C89_layer_partial say exactly what is accepted on float64: values in range, or NaN. C89_update and C89_fit: what a NaN learning rate or decay does. C89_fit is for models without sigmoid layers (as C70)."
  },
  {
   "property": "C90",
   "status": "proved",
   "theorems": [
    "NN.C90_fit"
   ],
   "note": "For models without sigmoid layers (as C70)."
  },
  {
   "property": "C91",
   "status": "proved",
   "theorems": [
    "NN.C91_forward",
    "NN.C91_loss",
    "NN.C91_infinite",
    "NN.C91_predict",
    "NN.C91_input"
   ],
   "note": "C91_forward, C91_loss, C91_predict, C91_input, on the bit-level float64."
  },
  {
   "property": "C92",
   "status": "proved",
   "theorems": [
    "NN.C92_no_layers",
    "NN.C92_not_finalized",
    "NN.C92_loss",
    "NN.C92_predict",
    "NN.C92_predict_empty",
    "NN.C92_late",
    "NN.C92_add"
   ],
   "note": "Fit and CalculateLoss panic rather than return an error."
  },
  {
   "property": "C93",
   "status": "proved",
   "theorems": [
    "NN.C93_fit",
    "NN.C93_constant",
    "NN.C93_client"
   ],
   "note": "On the reals; C93_fit for any state, C93_client for the sequence of calls build, Finalize, Fit."
  },
  {
   "property": "C94",
   "status": "proved",
   "theorems": [
    "NN.C94_beta1",
    "NN.C94_epsilon",
    "NN.C94_fit_beta1",
    "NN.C94_fit_epsilon"
   ],
   "note": "On float64."
  },
  {
   "property": "C95",
   "status": "proved",
   "theorems": [
    "NN.C95_layer",
    "NN.C95_same",
    "NN.C95_loss",
    "NN.C95_optimizer"
   ],
   "note": "Layers and losses exactly; for optimizers what setValues restores and what not."
  },
  {
   "property": "C96",
   "status": "proved",
   "theorems": [
    "NN.C96_fuel",
    "NN.C96_package",
    "NN.C96_range",
    "NN.C96_direct",
    "NN.C96_distribution",
    "NN.C96_nan"
   ],
   "note": "The range holds for every N; the distribution is proved for the direct method (N < 25, the only one the package reaches). The distributions of the two rejection methods are not claimed."
  },
  {
   "property": "C97",
   "status": "proved",
   "theorems": [
    "NN.C97_dot",
    "NN.C97_factor"
   ],
   "note": ""
  },
  {
   "property": "C98",
   "status": "proved",
   "theorems": [
    "NN.C98_layer"
   ],
   "note": "For every math.Exp that meets the laws of Libm (one ulp)."
  },
  {
   "property": "C99",
   "status": "proved",
   "theorems": [
    "NN.C99_network",
    "NN.C99_classify",
    "NN.C99_binary"
   ],
   "note": "For every math.Exp that meets the laws of Libm (one ulp)."
  },
  {
   "property": "C100",
   "status": "proved",
   "theorems": [
    "NN.C100_order",
    "NN.C100_real",
    "NN.C100_shuffle",
    "NN.C100_float64"
   ],
   "note": ""
  },
  {
   "property": "C101",
   "status": "proved",
   "theorems": [
    "NN.C101_twins"
   ],
   "note": ""
  },
  {
   "property": "C102",
   "status": "proved",
   "theorems": [
    "NN.C102_dead"
   ],
   "note": ""
  },
  {
   "property": "C103",
   "status": "proved",
   "theorems": [
    "NN.C103_fit",
    "NN.C103_first"
   ],
   "note": ""
  },
  {
   "property": "C104",
   "status": "proved",
   "theorems": [
    "NN.C104_sine"
   ],
   "note": ""
  },
  {
   "property": "C105",
   "status": "proved",
   "theorems": [
    "NN.C105_optimizers",
    "NN.C105_optimizers_real"
   ],
   "note": ""
  },
  {
   "property": "C106",
   "status": "proved",
   "theorems": [
    "NN.C106_sine",
    "NN.C106_optimizers"
   ],
   "note": ""
  },
  {
   "property": "C107",
   "status": "proved",
   "theorems": [
    "NN.C107_evaluate",
    "NN.C107_life"
   ],
   "note": ""
  },
  {
   "property": "C108",
   "status": "proved",
   "theorems": [
    "NN.C108_spiral",
    "NN.C108_distance",
    "NN.C108_labels",
    "NN.C108_float",
    "NN.C108_one_point"
   ],
   "note": ""
  },
  {
   "property": "C109",
   "status": "proved",
   "theorems": [
    "NN.C109_spiral",
    "NN.C109_iris",
    "NN.C109_trainModel",
    "NN.C109_iris_empty",
    "NN.C109_no_log"
   ],
   "note": ""
  },
  {
   "property": "C110",
   "status": "proved",
   "theorems": [
    "NN.C110_model",
    "NN.C110_data",
    "NN.C110_saveLoad",
    "NN.C110_no_log"
   ],
   "note": ""
  },
  {
   "property": "C111",
   "status": "proved",
   "theorems": [
    "NN.C111_converge"
   ],
   "note": ""
  },
  {
   "property": "C112",
   "status": "proved",
   "theorems": [
    "NN.C112_separable"
   ],
   "note": ""
  },
  {
   "property": "C113",
   "status": "proved",
   "theorems": [
    "NN.C113_program"
   ],
   "note": ""
  },
  {
   "property": "C114",
   "status": "proved",
   "theorems": [
    "NN.C114_matrix_tests",
    "NN.C114_deepEqual"
   ],
   "note": ""
  },
  {
   "property": "C115",
   "status": "proved",
   "theorems": [
    "NN.C115_misc_tests",
    "NN.C115_shuffle_test"
   ],
   "note": ""
  },
  {
   "property": "C116",
   "status": "proved",
   "theorems": [
    "NN.C116_layer_tests",
    "NN.C116_tenth",
    "NN.C116_softmax_ce_test"
   ],
   "note": ""
  },
  {
   "property": "C117",
   "status": "proved",
   "theorems": [
    "NN.C117_loss_tests",
    "NN.C117_layer_data_test"
   ],
   "note": ""
  },
  {
   "property": "C118",
   "status": "proved",
   "theorems": [
    "NN.C118_abs_gradient",
    "NN.C118_sigmoid_test",
    "NN.C118_scalar_test"
   ],
   "note": ""
  },
  {
   "property": "C119",
   "status": "proved",
   "theorems": [
    "NN.C119_converge",
    "NN.C119_mean"
   ],
   "note": ""
  },
  {
   "property": "C120",
   "status": "proved",
   "theorems": [
    "NN.C120_separable"
   ],
   "note": ""
  },
  {
   "property": "C121",
   "status": "proved",
   "theorems": [
    "NN.C121_program"
   ],
   "note": ""
  },
  {
   "property": "C122",
   "status": "proved",
   "theorems": [
    "NN.C122_exact"
   ],
   "note": ""
  },
  {
   "property": "C123",
   "status": "proved",
   "theorems": [
    "NN.C123_poisson",
    "NN.C123_cauchy",
    "NN.C123_never_all"
   ],
   "note": ""
  },
  {
   "property": "C124",
   "status": "proved",
   "theorems": [
    "NN.C124_same",
    "NN.C124_calls",
    "NN.C124_ends",
    "NN.C124_predict",
    "NN.C124_room",
    "NN.C124_race"
   ],
   "note": ""
  },
  {
   "property": "C125",
   "status": "proved",
   "theorems": [
    "NN.C125_params",
    "NN.C125_universal",
    "NN.C125_program"
   ],
   "note": ""
  },
  {
   "property": "C126",
   "status": "proved",
   "theorems": [
    "NN.C126_classes",
    "NN.C126_samples"
   ],
   "note": ""
  },
  {
   "property": "C127",
   "status": "proved",
   "theorems": [
    "NN.C127_classes",
    "NN.C127_binary",
    "NN.C127_hidden",
    "NN.C127_linear"
   ],
   "note": ""
  },
  {
   "property": "C128",
   "status": "proved",
   "theorems": [
    "NN.C128_careful",
    "NN.C128_nocopy",
    "NN.C128_copies",
    "NN.C128_predict"
   ],
   "note": ""
  },
  {
   "property": "C129",
   "status": "proved",
   "theorems": [
    "NN.C129_softmax",
    "NN.C129_linear"
   ],
   "note": ""
  },
  {
   "property": "C130",
   "status": "proved",
   "theorems": [
    "NN.C130_separable",
    "NN.C130_program"
   ],
   "note": ""
  },
  {
   "property": "C131",
   "status": "partial",
   "theorems": [
    "NN.C131_named_partial",
    "NN.C131_backward",
    "NN.C131_false"
   ],
   "note": "The full claim is false of the code (C131_false, C131_backward); C131_named_partial is what holds, for all arguments."
  },
  {
   "property": "C132",
   "status": "proved",
   "theorems": [
    "NN.C132_error",
    "NN.C132_line",
    "NN.C132_text",
    "NN.C132_numbers"
   ],
   "note": ""
  },
  {
   "property": "C133",
   "status": "partial",
   "theorems": [
    "NN.C133_frozen",
    "NN.C133_one_partial",
    "NN.C133_sample_partial",
    "NN.C133_false"
   ],
   "note": "False of the code with two or more outputs (C133_false): nothing is trained at all (C133_frozen). Proved with one output: subgradient descent with its rate of convergence, and the exact move on one sample."
  },
  {
   "property": "C134",
   "status": "proved",
   "theorems": [
    "NN.C134_exact",
    "NN.C134_converges",
    "NN.C134_diverges",
    "NN.C134_alternates"
   ],
   "note": ""
  },
  {
   "property": "C135",
   "status": "partial",
   "theorems": [
    "NN.C135_entropy_partial",
    "NN.C135_error_partial",
    "NN.C135_false"
   ],
   "note": "False of the code for the squared and the absolute error (C135_false); proved which training it is instead (C135_error_partial), and the full claim for both cross-entropies (C135_entropy_partial)."
  },
  {
   "property": "C136",
   "status": "partial",
   "theorems": [
    "NN.C136_fit",
    "NN.C136_shared_partial",
    "NN.C136_false",
    "NN.C136_accepts"
   ],
   "note": "False of the code for repeated ReLU layers (C136_false: a unit applied twice); proved when only linear layers occur more than once (C136_shared_partial, C136_fit), AddLayer accepts them (C136_accepts)."
  },
  {
   "property": "C137",
   "status": "proved",
   "theorems": [
    "NN.C137_session",
    "NN.C137_looking"
   ],
   "note": "C137_session: what any program does; C137_looking: read-only calls can be left out."
  },
  {
   "property": "C138",
   "status": "proved",
   "theorems": [
    "NN.C138_real",
    "NN.C138_symmetry",
    "NN.C138_float64"
   ],
   "note": ""
  },
  {
   "property": "C139",
   "status": "proved",
   "theorems": [
    "NN.C139_same",
    "NN.C139_fits",
    "NN.C139_ends",
    "NN.C139_log",
    "NN.C139_learns",
    "NN.C139_room",
    "NN.C139_race"
   ],
   "note": ""
  },
  {
   "property": "C140",
   "status": "proved",
   "theorems": [
    "NN.C140_cycle",
    "NN.C140_plain",
    "NN.C140_rest",
    "NN.C140_rest_plain",
    "NN.C140_float64"
   ],
   "note": ""
  },
  {
   "property": "C141",
   "status": "proved",
   "theorems": [
    "NN.C141_test",
    "NN.C141_float64",
    "NN.C141_uniform",
    "NN.C141_trained",
    "NN.C141_samples"
   ],
   "note": "Test set (C141_test, C141_float64), all models of one architecture (C141_uniform), training (C141_trained), number of samples (C141_samples)."
  },
  {
   "property": "C142",
   "status": "proved",
   "theorems": [
    "NN.C142_layer_accepted",
    "NN.C142_accepted",
    "NN.C142_refused",
    "NN.C142_file",
    "NN.C142_forged_layer",
    "NN.C142_forged",
    "NN.C142_false"
   ],
   "note": "accepted and refused files, forged files; C142_false refutes the bound by the length for refused files"
  },
  {
   "property": "C143",
   "status": "proved",
   "theorems": [
    "NN.C143_forward",
    "NN.C143_classify",
    "NN.C143_binary",
    "NN.C143_float",
    "NN.C143_tight"
   ],
   "note": "exact numbers and float64"
  },
  {
   "property": "C144",
   "status": "proved",
   "theorems": [
    "NN.C144_fit"
   ],
   "note": "for Adam under a stated hypothesis on the accuracy of math.Pow"
  },
  {
   "property": "C145",
   "status": "proved",
   "theorems": [
    "NN.C145_descent",
    "NN.C145_start"
   ],
   "note": "short trainings unconditionally (C145_start); long ones while parameters stay bounded and no ReLU unit changes sides (C145_descent)"
  },
  {
   "property": "C146",
   "status": "proved",
   "theorems": [
    "NN.C146_float",
    "NN.C146_zero",
    "NN.C146_file",
    "NN.C146_accuracy",
    "NN.C146_lines",
    "NN.C146_fit",
    "NN.C146_dest"
   ],
   "note": "%f as documented for strconv (exact value, six decimals, ties to even); writes to the log file are assumed to succeed"
  },
  {
   "property": "C147",
   "status": "proved",
   "theorems": [
    "NN.C147_csv",
    "NN.C147_numeral",
    "NN.C147_value",
    "NN.C147_readBack",
    "NN.C147_train",
    "NN.C147_unnoticed",
    "NN.C147_short",
    "NN.C147_iris"
   ],
   "note": "encoding/csv and strconv as documented; ParseFloat of texts that are no decimal numbers is left open; reading an open file is assumed to succeed"
  },
  {
   "property": "C148",
   "status": "proved",
   "theorems": [
    "NN.C148_direction",
    "NN.C148_unused",
    "NN.C148_softmax",
    "NN.C148_perfect",
    "NN.C148_adam"
   ],
   "note": "exact arithmetic; C148_adam shows that Adam does not keep the sums"
  },
  {
   "property": "C149",
   "status": "proved",
   "theorems": [
    "NN.C149_twins",
    "NN.C149_dropout"
   ],
   "note": "any interpretation of float64; C149_dropout shows that units of a dropout layer do not stay alike"
  },
  {
   "property": "C150",
   "status": "proved",
   "theorems": [
    "NN.C150_signal",
    "NN.C150_distinct",
    "NN.C150_half"
   ],
   "note": "over the reals; independence of the draws is a hypothesis (Go seeds one generator per layer with the time); no sigmoid or softmax layers before the point looked at"
  },
  {
   "property": "C151",
   "status": "proved",
   "theorems": [
    "NN.C151_panics",
    "NN.C151_error",
    "NN.C151_first",
    "NN.C151_fit",
    "NN.C151_skew",
    "NN.C151_quadratic",
    "NN.C151_diagonal",
    "NN.C151_adam"
   ],
   "note": "(a) C151_panics; (b) C151_error; (c) C151_first; (d) C151_fit; (e) C151_skew, C151_quadratic, C151_diagonal, C151_adam. Examples beside them. A square sigmoid layer in first place is not covered by (d)."
  },
  {
   "property": "C152",
   "status": "proved",
   "theorems": [
    "NN.C152_derivW",
    "NN.C152_derivB",
    "NN.C152_derivH",
    "NN.C152_loss",
    "NN.C152_step"
   ],
   "note": "one dropout layer, followed by a linear layer at the end; MSE, SGD without momentum, one batch; means over the masks in exact arithmetic"
  },
  {
   "property": "C153",
   "status": "proved",
   "theorems": [
    "NN.C153_rescale",
    "NN.C153_fit",
    "NN.C153_unit"
   ],
   "note": "(a) C153_rescale; (b) and (c) C153_fit, and C153_unit written out for one step of a ReLU unit. Softmax and sigmoid units are not homogeneous and not covered"
  },
  {
   "property": "C154",
   "status": "proved",
   "theorems": [
    "NN.C154_load",
    "NN.C154_only",
    "NN.C154_layer",
    "NN.C154_split",
    "NN.C154_fixed"
   ],
   "note": "C154_load and C154_only together are the equivalence; the hypothesis on bits holds for F64 (f64_bits)"
  },
  {
   "property": "C155",
   "status": "proved",
   "theorems": [
    "NN.C155_sgd",
    "NN.C155_adam"
   ],
   "note": "AxesFree .sgd is proved for all orthonormal Q; AxesFree .adam is refuted by a computed step"
  },
  {
   "property": "C156",
   "status": "proved",
   "theorems": [
    "NN.C156_nearest",
    "NN.C156_least"
   ],
   "note": "parameters converge to the exact solution nearest to the start; least-norm solution from zero"
  },
  {
   "property": "C157",
   "status": "proved",
   "theorems": [
    "NN.C157_rate"
   ],
   "note": "geometric rate; one factor for all starts and outputs"
  },
  {
   "property": "C158",
   "status": "proved",
   "theorems": [
    "NN.C158_exact",
    "NN.C158_fit",
    "NN.C158_noop",
    "NN.C158_panics"
   ],
   "note": "64-bit integers and float64; at most 2^52 samples"
  },
  {
   "property": "C159",
   "status": "proved",
   "theorems": [
    "NN.C159_forget",
    "NN.C159_limit",
    "NN.C159_biased"
   ],
   "note": "any data; limit, rate, forgetting of the start, and an example where the limit is not least-squares"
  },
  {
   "property": "C160",
   "status": "proved",
   "theorems": [
    "NN.C160_unfused",
    "NN.C160_dot",
    "NN.C160_exact",
    "NN.C160_network",
    "NN.C160_builds",
    "NN.C160_classify",
    "NN.C160_binary",
    "NN.C160_differ"
   ],
   "note": "All choices of fused steps; only the inference pass, training with fused steps is not modelled."
  },
  {
   "property": "C161",
   "status": "proved",
   "theorems": [
    "NN.C161_grow",
    "NN.C161_floor",
    "NN.C161_slow"
   ],
   "note": "exact arithmetic; separable data: margins and weights exceed every bound; other data: loss at least log 2 / r"
  },
  {
   "property": "C162",
   "status": "proved",
   "theorems": [
    "NN.C162_limit",
    "NN.C162_none",
    "NN.C162_separable"
   ],
   "note": "exact arithmetic; convergence of the parameters if a minimum exists, divergence if none does"
  },
  {
   "property": "C163",
   "status": "proved",
   "theorems": [
    "NN.C163_exists",
    "NN.C163_limit",
    "NN.C163_none",
    "NN.C163_missing"
   ],
   "note": "exact arithmetic; a minimum exists iff the classes overlap; then the parameters converge, otherwise they exceed every bound"
  },
  {
   "property": "C164",
   "status": "proved",
   "theorems": [
    "NN.C164_predictions"
   ],
   "note": "exact arithmetic; the limit of the predictions on the training samples is the same for all starts and rates"
  },
  {
   "property": "C165",
   "status": "proved",
   "theorems": [
    "NN.C165_calibrated"
   ],
   "note": "exact arithmetic; any data"
  },
  {
   "property": "C166",
   "status": "proved",
   "theorems": [
    "NN.C166_nearest"
   ],
   "note": "exact arithmetic; overlapping classes"
  }
 ]
}