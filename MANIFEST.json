{
 "claims": [
  {
   "property": "C01",
   "status": "proved",
   "theorems": [
    "Verif.C01_label_map"
   ],
   "note": "Every finite sequence of integer labels."
  },
  {
   "property": "C02",
   "status": "proved",
   "theorems": [
    "Verif.C02_label_renaming"
   ],
   "note": "All nine classes; holds for arbitrary (also ill-formed) sample arrays, so errors correspond too."
  },
  {
   "property": "C03",
   "status": "proved",
   "theorems": [
    "Verif.C03_ndim"
   ],
   "note": "Every state, every ndim other than 1 and 2."
  },
  {
   "property": "C04",
   "status": "proved",
   "theorems": [
    "Verif.C04_one_label"
   ],
   "note": "Every state; unchanged object, hence a later call behaves as on the object before."
  },
  {
   "property": "C05",
   "status": "proved",
   "theorems": [
    "Verif.C05_batch_once",
    "Verif.C05_converse",
    "Verif.Gen.C05_batch_once",
    "Verif.Gen.C05_converse"
   ],
   "note": "Any history of calls, with exceptions caught by the caller."
  },
  {
   "property": "C06",
   "status": "partial",
   "theorems": [
    "Verif.C06_partial",
    "Verif.C06_false",
    "Verif.C06_first_false"
   ],
   "note": "False for five classes: after a batch call, DB, GD43, GD53, PS and rCIP silently accept single samples and renumber the labels in order of first occurrence. Proved for CH, WB, XB, cSIL: every later single-sample call raises."
  },
  {
   "property": "C07",
   "status": "proved",
   "theorems": [
    "Verif.C07_returned_value"
   ],
   "note": "Every state and argument."
  },
  {
   "property": "C08",
   "status": "partial",
   "theorems": [
    "Verif.C08_partial",
    "Verif.C08_next_label_false",
    "Verif.C08_split_false",
    "Verif.C08_false"
   ],
   "note": "False for the code: a rejected sample with a new label leaves the label in the label map; the next new label then raises IndexError (seven classes) or is split into several clusters (CH, WB). Proved when the label is known, and for a retry with the same label."
  },
  {
   "property": "C09",
   "status": "proved",
   "theorems": [
    "Verif.C09_streams_never_fail"
   ],
   "note": "All nine classes (rCIP: d >= 1)."
  },
  {
   "property": "C10",
   "status": "partial",
   "theorems": [
    "Verif.C10_false",
    "Verif.C10_partial"
   ],
   "note": "False for the code: a batch that raises half-way leaves _is_setup set, so the corrected batch is refused. Partial: batches rejected before _param_batch leave the object usable."
  },
  {
   "property": "C100",
   "status": "proved",
   "theorems": [
    "Verif.Old.C100_SIL_update",
    "Verif.Old.C100_SIL",
    "Verif.Old.C100_SIL_value",
    "Verif.Old.C100_SIL_arrays",
    "Verif.Old.C100_SIL_first",
    "Verif.Old.Clu.C100_add_point",
    "Verif.Old.Clu.C100_distances",
    "Verif.Old.Clu.C100_within",
    "Verif.Old.Clu.C100_radial"
   ],
   "note": "Arrays of iSIL are numbered; the attribute g holds their numbers. With arrays of different lengths only single calls are compared (C100_SIL_update), not objects after exceptions. within_bounding_box before there is a box is not covered; the distances use the default norm."
  },
  {
   "property": "C101",
   "status": "proved",
   "theorems": [
    "Verif.Old.C101_XB",
    "Verif.Old.C101_PS",
    "Verif.Old.C101_CH",
    "Verif.Old.C101_GD43",
    "Verif.Old.C101_GD53",
    "Verif.Old.C101_DB",
    "Verif.Old.C101_PS_zero",
    "Verif.Old.C101_GD_zero",
    "Verif.Old.C101_DB_any",
    "Verif.Old.C101_GD_too_large"
   ],
   "note": "The corresponding sessions of iSIL and Cluster are in C100."
  },
  {
   "property": "C102",
   "status": "proved",
   "theorems": [
    "Verif.Source.C102_incremental",
    "Verif.Source.C102_batch",
    "Verif.Source.C102_cSIL_false",
    "Verif.Source.C102_rename",
    "Verif.Source.C102_close",
    "Verif.Source.C102_close_batch",
    "Verif.Source.C102_PS",
    "Verif.Source.C102_cSIL_batch",
    "Verif.Source.C102_cSIL_differs",
    "Verif.Source.C102_rCIP",
    "Verif.Source.C102_rCIP_batch",
    "Verif.Source.C102_rCIP_corners"
   ],
   "note": "Composition of C97/C98 with C11-C19 and C77-C88; feed_rename is new. The library `computed` meets the conditions of C102_rCIP."
  },
  {
   "property": "C11",
   "status": "proved",
   "theorems": [
    "Verif.C11_CH"
   ],
   "note": "Exact arithmetic; incremental for every stream and prefix, batch for labels exactly 0..k-1."
  },
  {
   "property": "C12",
   "status": "proved",
   "theorems": [
    "Verif.C12_WB"
   ],
   "note": "As C11."
  },
  {
   "property": "C13",
   "status": "proved",
   "theorems": [
    "Verif.C13_XB"
   ],
   "note": "As C11."
  },
  {
   "property": "C14",
   "status": "proved",
   "theorems": [
    "Verif.C14_DB"
   ],
   "note": "As C11."
  },
  {
   "property": "C15",
   "status": "proved",
   "theorems": [
    "Verif.C15_GD43"
   ],
   "note": "As C11."
  },
  {
   "property": "C16",
   "status": "proved",
   "theorems": [
    "Verif.C16_GD53"
   ],
   "note": "As C11."
  },
  {
   "property": "C17",
   "status": "proved",
   "theorems": [
    "Verif.C17_PS"
   ],
   "note": "As C11."
  },
  {
   "property": "C18",
   "status": "proved",
   "theorems": [
    "Verif.C18_rCIP"
   ],
   "note": "As C11, d >= 1."
  },
  {
   "property": "C19",
   "status": "partial",
   "theorems": [
    "Verif.C19_batch_partial",
    "Verif.C19_incremental_actual",
    "Verif.C19_incremental_partial",
    "Verif.C19_incremental_false"
   ],
   "note": "Batch mode proved. Incremental mode is false for the code (two wrong update formulas in cSIL.py); the exact returned value, a sufficient condition for agreement and a counterexample are proved."
  },
  {
   "property": "C20",
   "status": "partial",
   "theorems": [
    "Verif.C20_outcome",
    "Verif.C20_false",
    "Verif.C20_partial"
   ],
   "note": "False for the code: any label vector that is not exactly 0..k-1 yields NaN (PS: possibly ZeroDivisionError). The outcome is proved for every label vector."
  },
  {
   "property": "C21",
   "status": "partial",
   "theorems": [
    "Verif.C21_arrival_order_partial",
    "Verif.C21_cSIL_false"
   ],
   "note": "Proved for eight classes; false for incremental cSIL (counterexample)."
  },
  {
   "property": "C22",
   "status": "proved",
   "theorems": [
    "Verif.C22_row_order"
   ],
   "note": "All nine classes, every label vector (not only 0..k-1)."
  },
  {
   "property": "C23",
   "status": "partial",
   "theorems": [
    "Verif.C23_translation_inc_partial",
    "Verif.C23_translation_batch",
    "Verif.C23_cSIL_false"
   ],
   "note": "Proved for all nine in batch mode and eight in incremental mode; false for incremental cSIL."
  },
  {
   "property": "C24",
   "status": "proved",
   "theorems": [
    "Verif.C24_scale_inc",
    "Verif.C24_scale_inc_GD43",
    "Verif.C24_scale_batch",
    "Verif.C24_scale_batch_GD43"
   ],
   "note": ""
  },
  {
   "property": "C25",
   "status": "proved",
   "theorems": [
    "Verif.C25_isometry_inc",
    "Verif.C25_isometry_batch"
   ],
   "note": "All nine classes in both modes (incremental cSIL included)."
  },
  {
   "property": "C26",
   "status": "proved",
   "theorems": [
    "Verif.C26_one_cluster"
   ],
   "note": ""
  },
  {
   "property": "C27",
   "status": "proved",
   "theorems": [
    "Verif.C27_nonneg",
    "Verif.C27_nonneg_run"
   ],
   "note": "Both modes, every label vector."
  },
  {
   "property": "C28",
   "status": "proved",
   "theorems": [
    "Verif.C28_finite_inc",
    "Verif.C28_finite_batch",
    "Verif.C28_CH_singletons"
   ],
   "note": "Incremental: eight classes; batch with labels 0..k-1: nine."
  },
  {
   "property": "C29",
   "status": "proved",
   "theorems": [
    "Verif.C29_PS_range",
    "Verif.C29_PS_returned"
   ],
   "note": ""
  },
  {
   "property": "C30",
   "status": "partial",
   "theorems": [
    "Verif.C30_cSIL_range_partial",
    "Verif.C30_cSIL_range_false"
   ],
   "note": "Batch proved; incremental false: the value is unbounded below."
  },
  {
   "property": "C31",
   "status": "proved",
   "theorems": [
    "Verif.C31_rCIP_positive"
   ],
   "note": ""
  },
  {
   "property": "C32",
   "status": "proved",
   "theorems": [
    "Verif.C32_CH_WB"
   ],
   "note": "Either value may come from either mode."
  },
  {
   "property": "C33",
   "status": "proved",
   "theorems": [
    "Verif.C33_conserved"
   ],
   "note": ""
  },
  {
   "property": "C34",
   "status": "proved",
   "theorems": [
    "Verif.C34_bookkeeping"
   ],
   "note": ""
  },
  {
   "property": "C35",
   "status": "proved",
   "theorems": [
    "Verif.C35_frame"
   ],
   "note": ""
  },
  {
   "property": "C36",
   "status": "partial",
   "theorems": [
    "Verif.C36_partial",
    "Verif.C36_second_partial",
    "Verif.C36_false"
   ],
   "note": "False for CH and WB: the first sample's array is kept as the mean until the second sample. Proved for the seven other classes, and for CH and WB when the first buffer is left alone until the second call."
  },
  {
   "property": "C37",
   "status": "partial",
   "theorems": [
    "Verif.C37_partial",
    "Verif.C37_stream_partial",
    "Verif.C37_false",
    "Verif.Gen.C37_partial"
   ],
   "note": "False for the code: a one-element sample with a known label is broadcast. Every other wrong length raises, after any call history."
  },
  {
   "property": "C38",
   "status": "partial",
   "theorems": [
    "Verif.C38_false",
    "Verif.C38_partial"
   ],
   "note": "False for the code: fewer labels than rows is accepted silently; surplus labels raise only when they name a counted cluster."
  },
  {
   "property": "C39",
   "status": "proved",
   "theorems": [
    "Verif.C39_base_abstract"
   ],
   "note": ""
  },
  {
   "property": "C40",
   "status": "partial",
   "theorems": [
    "Verif.C40_false",
    "Verif.C40_partial"
   ],
   "note": "False for the code: a function without docstring (python -OO) raises TypeError."
  },
  {
   "property": "C41",
   "status": "proved",
   "theorems": [
    "Verif.C41"
   ],
   "note": "For real arithmetic, p=q=2, starting from a non-empty cluster and a zero or missing G."
  },
  {
   "property": "C42",
   "status": "partial",
   "theorems": [
    "Verif.C42_partial",
    "Verif.C42_run",
    "Verif.C42_always_zero",
    "Verif.C42_false"
   ],
   "note": "False for the code: iPS never writes its output, so every update that returns returns 0, whatever the history. That is the right value for at most one cluster only."
  },
  {
   "property": "C43",
   "status": "partial",
   "theorems": [
    "Verif.C43_partial",
    "Verif.C43_run",
    "Verif.C43_bound_partial",
    "Verif.C43_false"
   ],
   "note": "False for the code: the least separation is never forgotten. Proved: the value is the Xie-Beni index with the least separation of the whole history, hence right whenever the current one is the least so far, and otherwise an upper bound."
  },
  {
   "property": "C44",
   "status": "partial",
   "theorems": [
    "Verif.C44_partial",
    "Verif.C44_false",
    "Verif.C44_value_false"
   ],
   "note": "False for the code: iCH compares with the length of a list that stays empty. A stream starting with clusters 0, 1 raises IndexError, and 0, 0, 1 gives a wrong value. Proved: streams of one cluster."
  },
  {
   "property": "C45",
   "status": "partial",
   "theorems": [
    "Verif.C45_partial",
    "Verif.C45_zero_partial",
    "Verif.C45_false"
   ],
   "note": "False for the code: the second sample of any cluster raises AttributeError. Accepted exactly when every cluster has one sample; every value ever returned is 0."
  },
  {
   "property": "C46",
   "status": "partial",
   "theorems": [
    "Verif.C46_partial",
    "Verif.C46_any_partial",
    "Verif.C46_false"
   ],
   "note": "False for the code: the second sample of any cluster raises IndexError. Accepted exactly when every cluster has one sample; every value ever returned is 0."
  },
  {
   "property": "C47",
   "status": "partial",
   "theorems": [
    "Verif.C47_partial",
    "Verif.C47_frame_partial",
    "Verif.C47_false"
   ],
   "note": "False for the code: the first update always raises ValueError and doubles the caller's array. Proved: an update returns exactly if there are then two clusters; arrays never passed are never written to."
  },
  {
   "property": "C48",
   "status": "partial",
   "theorems": [
    "Verif.C48_partial",
    "Verif.C48_false"
   ],
   "note": "False for iXB, iCH, iDB: they raise ValueError after counting the sample. Proved for iGD43, iGD53 and iSIL."
  },
  {
   "property": "C49",
   "status": "proved",
   "theorems": [
    "Verif.C49"
   ],
   "note": ""
  },
  {
   "property": "C50",
   "status": "partial",
   "theorems": [
    "Verif.C50_partial",
    "Verif.C50_false"
   ],
   "note": "False for box=True: the second point always raises ValueError. Proved for radial clusters without bounding box."
  },
  {
   "property": "C51",
   "status": "partial",
   "theorems": [
    "Verif.C51_partial",
    "Verif.C51_false"
   ],
   "note": "False for the code: every non-empty input raises. Proved: the empty input is accepted, and no other."
  },
  {
   "property": "C52",
   "status": "partial",
   "theorems": [
    "Verif.C52_constant_inc_partial",
    "Verif.C52_zero_inc_partial",
    "Verif.C52_constant_batch",
    "Verif.C52_cSIL_false"
   ],
   "note": "False for incremental cSIL unless the constant is 0. Proved for the seven other classes in both modes, for cSIL in batch mode."
  },
  {
   "property": "C53",
   "status": "partial",
   "theorems": [
    "Verif.C53_passes_inc_partial",
    "Verif.C53_passes_inc_CH",
    "Verif.C53_passes_batch",
    "Verif.C53_passes_batch_CH",
    "Verif.C53_cSIL_false"
   ],
   "note": "False for incremental cSIL. Proved for the other classes in both modes, for cSIL in batch mode. rCIP is not covered: its covariance has n-1 in the denominator."
  },
  {
   "property": "C54",
   "status": "proved",
   "theorems": [
    "Verif.C54_GD53_range"
   ],
   "note": ""
  },
  {
   "property": "C55",
   "status": "proved",
   "theorems": [
    "Verif.C55_rCIP_bound"
   ],
   "note": ""
  },
  {
   "property": "C56",
   "status": "proved",
   "theorems": [
    "Verif.C56_PS_two"
   ],
   "note": ""
  },
  {
   "property": "C57",
   "status": "proved",
   "theorems": [
    "Verif.C57_compactness",
    "Verif.C57_covariance",
    "Verif.C57_cSIL"
   ],
   "note": ""
  },
  {
   "property": "C58",
   "status": "partial",
   "theorems": [
    "Verif.C58_batch_bookkeeping",
    "Verif.C58_modes_agree",
    "Verif.C58_cSIL_false"
   ],
   "note": "Proved for all classes, except that cSIL's _CP holds different quantities in the two modes (scatter in batch, sum of squared norms incrementally)."
  },
  {
   "property": "C59",
   "status": "proved",
   "theorems": [
    "Verif.C59_session"
   ],
   "note": "Samples of wrong length: length neither 1 nor d, d not 1, existing label; the remaining cases are C08 and C37."
  },
  {
   "property": "C60",
   "status": "proved",
   "theorems": [
    "Verif.C60_inc",
    "Verif.C60_disagree",
    "Verif.C60_batch",
    "Verif.C60_batch_value"
   ],
   "note": "Missing features are presented as NaN; `Completes S T`: S is T with the missing features filled in. Proved by a simulation between the run on T and the run on any completion."
  },
  {
   "property": "C61",
   "status": "partial",
   "theorems": [
    "Verif.C61_partial",
    "Verif.C61_GD53",
    "Verif.C61_batch",
    "Verif.C61_false"
   ],
   "note": "Proved in batch mode for all nine classes and in incremental mode for all but GD53. For incremental GD53 the claim is false (C61_false); C61_GD53 says exactly when NaN is returned: the gap must be in a cluster of at least two samples; otherwise the value is that of every completion."
  },
  {
   "property": "C62",
   "status": "proved",
   "theorems": [
    "Verif.Gen.C62_every_arithmetic",
    "Verif.Gen.C62_rCIP"
   ],
   "note": "Gen.C62_rCIP assumes that np.linalg.inv of a d x d array is a d x d array (shown for exact arithmetic in XR.invShape)"
  },
  {
   "property": "C63",
   "status": "proved",
   "theorems": [
    "Verif.Gen.C63_own_samples",
    "Verif.Gen.C63_interleaving"
   ],
   "note": ""
  },
  {
   "property": "C64",
   "status": "proved",
   "theorems": [
    "Verif.Gen.C64_table"
   ],
   "note": ""
  },
  {
   "property": "C65",
   "status": "partial",
   "theorems": [
    "Verif.Gen.C65_interleaving_partial",
    "Verif.Gen.C65_rCIP",
    "Verif.Gen.C65_others_depend"
   ],
   "note": "proved for six classes; Gen.C65_others_depend shows that it fails for CH, WB, cSIL in a rounding arithmetic (and for rCIP in one whose quadratic form is not even)"
  },
  {
   "property": "C66",
   "status": "proved",
   "theorems": [
    "Verif.Gen.C66_same_records"
   ],
   "note": ""
  },
  {
   "property": "C67",
   "status": "partial",
   "theorems": [
    "Verif.Gen.C67_rCIP_overflow",
    "Verif.Gen.C67_rCIP_overflow_batch",
    "Verif.Gen.C67_rCIP_features_partial"
   ],
   "note": "false of the code: OverflowError from 387 features on; the partial theorem covers 1 to 386 features"
  },
  {
   "property": "C68",
   "status": "proved",
   "theorems": [
    "Verif.Gen.C68_centroid",
    "Verif.Gen.C68_mean"
   ],
   "note": "Errors grow at most linearly with the number of samples."
  },
  {
   "property": "C69",
   "status": "proved",
   "theorems": [
    "Verif.Gen.C69_compactness"
   ],
   "note": "The error is relative to n d M^2, the largest possible compactness, not to the compactness itself: for tight clusters far from the origin the relative error can be large."
  },
  {
   "property": "C70",
   "status": "proved",
   "theorems": [
    "Verif.Gen.C70_batch",
    "Verif.Gen.C70_PS_raises",
    "Verif.Gen.C70_rCIP"
   ],
   "note": ""
  },
  {
   "property": "C71",
   "status": "proved",
   "theorems": [
    "Verif.Gen.C71_depends",
    "Verif.Gen.C71_rCIP",
    "Verif.Gen.C71_incremental_differs"
   ],
   "note": ""
  },
  {
   "property": "C72",
   "status": "proved",
   "theorems": [
    "Verif.Gen.C72_rejected",
    "Verif.Gen.C72_session",
    "Verif.Gen.C05_batch_once",
    "Verif.Gen.C05_converse",
    "Verif.Gen.C37_partial"
   ],
   "note": "rCIP: provided the library's matrix inverse has the shape of its argument. C02, C03, C04 and C07 are stated for every arithmetic themselves."
  },
  {
   "property": "C73",
   "status": "proved",
   "theorems": [
    "Verif.Gen.C73_standard",
    "Verif.Gen.C73_centroid",
    "Verif.Gen.C73_compactness"
   ],
   "note": "binary64 is modelled bit by bit (Gen/B64.lean); the order of summation and fused multiply-add are arbitrary"
  },
  {
   "property": "C74",
   "status": "partial",
   "theorems": [
    "Verif.Gen.C74_false",
    "Verif.Gen.C74_partial"
   ],
   "note": "the code does not have it: six equal samples 0.1 in two clusters give a positive number for all six indices (C74_false). The last sentence holds for every library (C74_partial)"
  },
  {
   "property": "C75",
   "status": "proved",
   "theorems": [
    "Verif.Gen.C75_CH",
    "Verif.Gen.C75_WB",
    "Verif.Gen.C75_XB"
   ],
   "note": "the returned number is compared with Spec.value of the real data set the floats stand for; quads_close instantiates the hypotheses"
  },
  {
   "property": "C76",
   "status": "proved",
   "theorems": [
    "Verif.Gen.C76_GD43",
    "Verif.Gen.C76_GD53",
    "Verif.Gen.C76_DB"
   ],
   "note": "as C75"
  },
  {
   "property": "C77",
   "status": "proved",
   "theorems": [
    "Verif.Gen.C77_binary64"
   ],
   "note": "Separated states the conditions index by index; quads_close: four points, all six indices"
  },
  {
   "property": "C78",
   "status": "proved",
   "theorems": [
    "Verif.Gen.C78_batch"
   ],
   "note": "Spec.Consecutive: labels are 0..k-1, as C10 requires; quads_agree meets the hypotheses"
  },
  {
   "property": "C79",
   "status": "proved",
   "theorems": [
    "Verif.Gen.C79_batch64",
    "Verif.Gen.C79_agree"
   ],
   "note": "quads_agree: four points, all six indices"
  },
  {
   "property": "C80",
   "status": "partial",
   "theorems": [
    "Verif.Gen.C80_batch_partial",
    "Verif.Gen.C80_DB_partial",
    "Verif.Gen.C80_separated_partial",
    "Verif.Gen.C80_false"
   ],
   "note": "false of incremental runs of five classes (C80_false: finite samples with two features). Proved: batches of all six, for any data; incremental DB, for any data; incremental runs of all six under the conditions of C77"
  },
  {
   "property": "C81",
   "status": "proved",
   "theorems": [
    "Verif.Gen.C81_PS",
    "Verif.Gen.C81_PS_batch"
   ],
   "note": "StandardExp states what is assumed of np.exp; quads_PS meets the hypotheses"
  },
  {
   "property": "C82",
   "status": "proved",
   "theorems": [
    "Verif.Gen.C82_PS64",
    "Verif.Gen.C82_PS64_batch",
    "Verif.Gen.C82_PS64_agree"
   ],
   "note": "quads_PS: four points, 2 - 2 exp(-4) up to 2^-34 in both modes, with the library Lib.withExp"
  },
  {
   "property": "C83",
   "status": "proved",
   "theorems": [
    "Verif.Gen.C83_cSIL_batch",
    "Verif.Gen.C83_cSIL64_batch"
   ],
   "note": "batch mode only: incremental cSIL does not compute the index (C19); quads_cSIL: four points, 36/37 up to 2^-40"
  },
  {
   "property": "C84",
   "status": "proved",
   "theorems": [
    "Verif.Gen.C84_incremental",
    "Verif.Gen.C84_batch",
    "Verif.Gen.C84_incremental64",
    "Verif.Gen.C84_batch64"
   ],
   "note": "Example: RCIPCorners.lean."
  },
  {
   "property": "C85",
   "status": "proved",
   "theorems": [
    "Verif.Gen.C85_no_error",
    "Verif.Gen.C85_rCIP",
    "Verif.Gen.C85_rCIP_batch",
    "Verif.Gen.C85_rCIP64",
    "Verif.Gen.C85_rCIP64_batch",
    "Verif.Gen.C85_rCIP64_agree"
   ],
   "note": "Conditions: `Small` in the standard model, `Fits` in binary64; with one feature delta is 1e-12, so M has to be small. Example: RCIPCorners.lean."
  },
  {
   "property": "C86",
   "status": "partial",
   "theorems": [
    "Verif.Gen.C86_partial",
    "Verif.Gen.C86_shared",
    "Verif.Gen.C86_batch",
    "Verif.Gen.C86_false",
    "Verif.Gen.C86_zero"
   ],
   "note": "False as stated (C86_false, C86_zero). Not claimed for rCIP: what det and inv do with infinities is not specified by numpy."
  },
  {
   "property": "C87",
   "status": "proved",
   "theorems": [
    "Verif.Gen.C87_memory",
    "Verif.Gen.C87_same",
    "Verif.Gen.C87_bound"
   ],
   "note": "Counts the entries of every array or list attribute and of the label map; the attributes that are single numbers are a fixed set."
  },
  {
   "property": "C88",
   "status": "proved",
   "theorems": [
    "Verif.Gen.C88_cSIL",
    "Verif.Gen.C88_cSIL64",
    "Verif.Gen.C88_differs"
   ],
   "note": "Reference is CSIL.actual, the closed form that C19 proves for the code in exact arithmetic; quads_cSIL_inc: four points, 1040/1073 up to 2^-30."
  },
  {
   "property": "C89",
   "status": "proved",
   "theorems": [
    "Verif.Gen.C89_incremental",
    "Verif.Gen.C89_batch",
    "Verif.Gen.C89_order",
    "Verif.Gen.C89_PS",
    "Verif.Gen.C89_PS_batch",
    "Verif.Gen.C89_cSIL_batch",
    "Verif.Gen.C89_rCIP",
    "Verif.Gen.C89_bits"
   ],
   "note": "C21-C25 in floats. quads_mirrored: four points and their mirror image with a constant second feature, within 2^-30. C89_bits: seven points in two orders give different bits for each of the six classes. Incremental cSIL is excluded: it depends on order and origin even in exact arithmetic (C21, C23)."
  },
  {
   "property": "C90",
   "status": "proved",
   "theorems": [
    "Verif.Gen.C90_incremental",
    "Verif.Gen.C90_batch",
    "Verif.Gen.C90_rCIP",
    "Verif.Gen.C90_rCIP_batch"
   ],
   "note": "Lib.Ordered is assumed of numpy: inner products and means of columns are added in an order depending on lengths only."
  },
  {
   "property": "C91",
   "status": "partial",
   "theorems": [
    "Verif.Gen.C91_partial",
    "Verif.Gen.C91_binary64",
    "Verif.Gen.C91_rCIP",
    "Verif.Gen.C91_rCIP_binary64",
    "Verif.Gen.C91_false",
    "Verif.Gen.C91_places_false",
    "Verif.Gen.C91_rCIP_false"
   ],
   "note": "False for integers whose squares leave the 64-bit integers (C91_false, C91_rCIP_false); proved below the bounds, in exact arithmetic and in binary64. Only the two methods in which integers meet integers are modelled with types; that all others convert first is by inspection."
  },
  {
   "property": "C92",
   "status": "proved",
   "theorems": [
    "Verif.C92",
    "Verif.C92_accepts",
    "Verif.C92_rejects",
    "Verif.C92_cases",
    "Verif.C92_inOrder"
   ],
   "note": "exact arithmetic; specification in Compat/SpecCH.lean (staleCH), in terms of the samples only; complements C44, which the code falsifies"
  },
  {
   "property": "C93",
   "status": "proved",
   "theorems": [
    "Verif.C93",
    "Verif.C93_arrays",
    "Verif.C93_range",
    "Verif.C93_opening",
    "Verif.C93_two",
    "Verif.C93_not_silhouette"
   ],
   "note": "exact arithmetic; specification in Compat/SpecSIL.lean (silOutput), in terms of the samples only; complements C47, which the code falsifies"
  },
  {
   "property": "C94",
   "status": "proved",
   "theorems": [
    "Verif.Gen.C94_incremental",
    "Verif.Gen.C94_bits",
    "Verif.Gen.C94_batch",
    "Verif.Gen.C94_flags",
    "Verif.Gen.C94_times",
    "Verif.Gen.C94_underflow",
    "Verif.Gen.C94_three"
   ],
   "note": "rCIP is excluded: its ridge 10 ** (-12 / d) has no unit. C94_underflow: the condition is needed; C94_three: other factors change bits."
  },
  {
   "property": "C95",
   "status": "proved",
   "theorems": [
    "Verif.C95_any_label",
    "Verif.C95_rename",
    "Verif.C95_not_hashable",
    "Verif.C95_values"
   ],
   "note": "Two objects are the same label if a dict takes them for the same key."
  },
  {
   "property": "C96",
   "status": "partial",
   "theorems": [
    "Verif.Gen.C96_partial",
    "Verif.Gen.C96_centroid",
    "Verif.Gen.C96_ties",
    "Verif.Gen.C96_false"
   ],
   "note": "The full claim (same values as for doubles) is false of the code (C96_false). Proved: equality where no product is changed by single precision, and the bound on centroids. CH, WB, cSIL, rCIP and batches with float32 are not modelled."
  },
  {
   "property": "C97",
   "status": "proved",
   "theorems": [
    "Verif.Source.C97_init",
    "Verif.Source.C97_call",
    "Verif.Source.C97_text",
    "Verif.Source.C97_agree",
    "Verif.Source.C97_values",
    "Verif.Source.C97_rCIP",
    "Verif.Source.C97_refused",
    "Verif.Source.C97_reals",
    "Verif.Source.C97_binary64"
   ],
   "note": "Deep embedding of the source by tools/embed.py, interpreter in Source/Interp.lean. For cSIL and rCIP the exception class is not compared. Batch mode of the text: C98."
  },
  {
   "property": "C98",
   "status": "proved",
   "theorems": [
    "Verif.Source.C98_batch",
    "Verif.Source.C98_call",
    "Verif.Source.C98_calls",
    "Verif.Source.C98_calls_agree",
    "Verif.Source.C98_values",
    "Verif.Source.C98_PS_raises",
    "Verif.Source.C98_rCIP",
    "Verif.Source.C98_reals",
    "Verif.Source.C98_binary64"
   ],
   "note": "cSIL in mixed sequences and rCIP: exceptions of the text and of the model may be of different classes."
  },
  {
   "property": "C99",
   "status": "proved",
   "theorems": [
    "Verif.Old.C99_norm22",
    "Verif.Old.C99_center",
    "Verif.Old.C99_CP_update",
    "Verif.Old.C99_XB",
    "Verif.Old.C99_PS",
    "Verif.Old.C99_CH",
    "Verif.Old.C99_GD43",
    "Verif.Old.C99_GD53",
    "Verif.Old.C99_DB",
    "Verif.Old.C99_XB_value",
    "Verif.Old.C99_PS_value",
    "Verif.Old.C99_CH_value",
    "Verif.Old.C99_GD_raises",
    "Verif.Old.C99_DB_raises"
   ],
   "note": "the text is embedded by tools/embed_v0.py; iCVI and Clusters.from_list are not embedded; sequences end at the first exception (C101 goes on); iSIL and Cluster: C100"
  }
 ]
}