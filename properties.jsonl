{"id": "C01", "title": "Labels map to clusters stably, injectively and densely", "statement": "For any sequence of LabelMap.get_internal_label calls: the same label always gets the same internal number, different labels get different numbers, the numbers in use are exactly 0..k-1 where k is the number of distinct labels seen, and the j-th new label (in order of first appearance) gets number j.", "quantifier": "every finite sequence of integer labels (any order, repeats, negatives, gaps)", "why_tests_cant": "Any label sequence of any length; a test fixes a handful of sequences.", "anchors": ["src/cvi/modules/_base.py:LabelMap.get_internal_label"]}
{"id": "C02", "title": "Incremental results do not depend on the label values", "statement": "Feeding a fresh CVI object a stream sample by sample gives the same sequence of returned values if every label is replaced through any injective renaming. Holds for all nine indices.", "quantifier": "all nine classes, every finite stream of equal-length finite samples, every injective renaming of integers", "why_tests_cant": "Quantifies over all renamings and all streams.", "anchors": ["src/cvi/modules/_base.py:LabelMap", "src/cvi/modules/_base.py:CVI.get_cvi", "src/cvi/modules/CH.py:CH._param_inc", "src/cvi/modules/cSIL.py:cSIL._param_inc", "src/cvi/modules/DB.py:DB._param_inc", "src/cvi/modules/GD43.py:GD43._param_inc", "src/cvi/modules/GD53.py:GD53._param_inc", "src/cvi/modules/PS.py:PS._param_inc", "src/cvi/modules/rCIP.py:rCIP._param_inc", "src/cvi/modules/WB.py:WB._param_inc", "src/cvi/modules/XB.py:XB._param_inc"]}
{"id": "C03", "title": "Data that is not 1-D or 2-D is rejected without side effects", "statement": "get_cvi on an array whose ndim is neither 1 nor 2 raises ValueError and leaves the object exactly as it was, whatever was done to it before.", "quantifier": "all classes, every object state, every ndim outside {1,2}, every label argument", "why_tests_cant": "All object states and all ndim; tests check ndim=3 on a fresh object and do not look at the state afterwards.", "anchors": ["src/cvi/modules/_base.py:CVI.get_cvi"]}
{"id": "C04", "title": "Batch mode with fewer than two distinct labels is rejected without side effects", "statement": "get_cvi with 2-D data and labels holding fewer than two distinct values raises ValueError, the object is unchanged, and a later well-formed call on it behaves as on a fresh object.", "quantifier": "all nine classes, every 2-D data array, every label vector with at most one distinct value (including empty, and a scalar label)", "why_tests_cant": "All shapes and label vectors, and what the object does afterwards.", "anchors": ["src/cvi/modules/_base.py:CVI.get_cvi"]}
{"id": "C05", "title": "An object accepts at most one batch, and only before any other update", "statement": "After any update has been applied (a batch, or at least one incremental sample), every later call with 2-D data raises ValueError and leaves the object unchanged.", "quantifier": "all nine classes, every history of calls that set the object up, every later batch", "why_tests_cant": "Ranges over all call histories.", "anchors": ["src/cvi/modules/_base.py:CVI.get_cvi", "src/cvi/modules/_base.py:CVI._setup", "src/cvi/modules/_base.py:CVI._setup_batch"]}
{"id": "C06", "title": "Switching from batch to incremental is refused", "statement": "After a batch update, calling get_cvi with a single sample is refused with an error (README: switching is not supported), rather than silently attributing the sample to some cluster.", "quantifier": "all nine classes, every batch, every later single sample and label", "why_tests_cant": "The wrong behaviour is silent and depends on the class and the label; every class/history must be covered.", "anchors": ["src/cvi/modules/_base.py:CVI.get_cvi", "README.md (Detailed Usage note)", "src/cvi/modules/CH.py:CH._param_inc", "src/cvi/modules/cSIL.py:cSIL._param_inc", "src/cvi/modules/DB.py:DB._param_inc", "src/cvi/modules/GD43.py:GD43._param_inc", "src/cvi/modules/GD53.py:GD53._param_inc", "src/cvi/modules/PS.py:PS._param_inc", "src/cvi/modules/rCIP.py:rCIP._param_inc", "src/cvi/modules/WB.py:WB._param_inc", "src/cvi/modules/XB.py:XB._param_inc"]}
{"id": "C07", "title": "get_cvi returns the stored criterion value", "statement": "Whenever get_cvi returns normally, the returned number is the criterion_value attribute of the object after the call.", "quantifier": "all nine classes, every object state, every data/label argument for which the call returns", "why_tests_cant": "All states and inputs.", "anchors": ["src/cvi/modules/_base.py:CVI.get_cvi", "src/cvi/modules/CH.py:CH._evaluate", "src/cvi/modules/cSIL.py:cSIL._evaluate", "src/cvi/modules/DB.py:DB._evaluate", "src/cvi/modules/GD43.py:GD43._evaluate", "src/cvi/modules/GD53.py:GD53._evaluate", "src/cvi/modules/PS.py:PS._evaluate", "src/cvi/modules/rCIP.py:rCIP._evaluate", "src/cvi/modules/WB.py:WB._evaluate", "src/cvi/modules/XB.py:XB._evaluate"]}
{"id": "C08", "title": "A rejected sample leaves the object usable", "statement": "If get_cvi raises on a single sample (e.g. a sample of the wrong length), the object is unchanged, so correct samples fed afterwards give the same results as if the bad call had not been made.", "quantifier": "all nine classes, every history, every rejected call", "why_tests_cant": "Crash points inside the update; a test sees one of them.", "anchors": ["src/cvi/modules/_base.py:LabelMap.get_internal_label", "src/cvi/modules/CH.py:CH._param_inc", "src/cvi/modules/cSIL.py:cSIL._param_inc", "src/cvi/modules/DB.py:DB._param_inc", "src/cvi/modules/GD43.py:GD43._param_inc", "src/cvi/modules/GD53.py:GD53._param_inc", "src/cvi/modules/PS.py:PS._param_inc", "src/cvi/modules/rCIP.py:rCIP._param_inc", "src/cvi/modules/WB.py:WB._param_inc", "src/cvi/modules/XB.py:XB._param_inc"]}
{"id": "C09", "title": "Well-formed streams never fail", "statement": "A fresh object fed any stream of finite samples of one common length and any integer labels never raises, for every prefix (rCIP: length at least 1).", "quantifier": "all nine classes, every dimension, every stream", "why_tests_cant": "Unbounded streams and dimensions.", "anchors": ["src/cvi/modules/CH.py:CH._param_inc", "src/cvi/modules/cSIL.py:cSIL._param_inc", "src/cvi/modules/DB.py:DB._param_inc", "src/cvi/modules/GD43.py:GD43._param_inc", "src/cvi/modules/GD53.py:GD53._param_inc", "src/cvi/modules/PS.py:PS._param_inc", "src/cvi/modules/rCIP.py:rCIP._param_inc", "src/cvi/modules/WB.py:WB._param_inc", "src/cvi/modules/XB.py:XB._param_inc", "src/cvi/modules/CH.py:CH._evaluate", "src/cvi/modules/cSIL.py:cSIL._evaluate", "src/cvi/modules/DB.py:DB._evaluate", "src/cvi/modules/GD43.py:GD43._evaluate", "src/cvi/modules/GD53.py:GD53._evaluate", "src/cvi/modules/PS.py:PS._evaluate", "src/cvi/modules/rCIP.py:rCIP._evaluate", "src/cvi/modules/WB.py:WB._evaluate", "src/cvi/modules/XB.py:XB._evaluate"]}
{"id": "C10", "title": "A failed batch leaves the object usable", "statement": "If a batch call raises because labels and data do not fit, a corrected batch call on the same object succeeds.", "quantifier": "all nine classes, every failing batch", "why_tests_cant": "Crash points inside the batch update.", "anchors": ["src/cvi/modules/_base.py:CVI._setup_batch", "src/cvi/modules/_base.py:CVI.get_cvi", "src/cvi/modules/CH.py:CH._param_batch", "src/cvi/modules/cSIL.py:cSIL._param_batch", "src/cvi/modules/DB.py:DB._param_batch", "src/cvi/modules/GD43.py:GD43._param_batch", "src/cvi/modules/GD53.py:GD53._param_batch", "src/cvi/modules/PS.py:PS._param_batch", "src/cvi/modules/rCIP.py:rCIP._param_batch", "src/cvi/modules/WB.py:WB._param_batch", "src/cvi/modules/XB.py:XB._param_batch"]}
{"id": "C11", "title": "CH: incremental equals batch equals its definition", "statement": "After each sample of any stream, the value returned by a CH object is (BGSS/WGSS)*((n-k)/(k-1)) with WGSS the within-cluster and BGSS the size-weighted between-cluster sum of squares, computed from all samples seen so far; with labels 0..k-1 (k>=2) the batch call returns that same value, so incremental and batch agree (exact arithmetic).", "quantifier": "every dimension (rCIP: >=1), every stream and prefix, every batch with labels exactly 0..k-1", "why_tests_cant": "The shipped test compares three fixed data sets at 10% tolerance; the claim is for every data set and every arrival order.", "anchors": ["src/cvi/modules/CH.py:CH._param_inc", "src/cvi/modules/CH.py:CH._param_batch", "src/cvi/modules/CH.py:CH._evaluate", "README.md: batch and incremental implementation are equivalent"]}
{"id": "C12", "title": "WB: incremental equals batch equals its definition", "statement": "After each sample of any stream, the value returned by a WB object is k*WGSS/BGSS, computed from all samples seen so far; with labels 0..k-1 (k>=2) the batch call returns that same value, so incremental and batch agree (exact arithmetic).", "quantifier": "every dimension (rCIP: >=1), every stream and prefix, every batch with labels exactly 0..k-1", "why_tests_cant": "The shipped test compares three fixed data sets at 10% tolerance; the claim is for every data set and every arrival order.", "anchors": ["src/cvi/modules/WB.py:WB._param_inc", "src/cvi/modules/WB.py:WB._param_batch", "src/cvi/modules/WB.py:WB._evaluate", "README.md: batch and incremental implementation are equivalent"]}
{"id": "C13", "title": "XB: incremental equals batch equals its definition", "statement": "After each sample of any stream, the value returned by a XB object is WGSS/(n*min over cluster pairs of the squared centroid distance), computed from all samples seen so far; with labels 0..k-1 (k>=2) the batch call returns that same value, so incremental and batch agree (exact arithmetic).", "quantifier": "every dimension (rCIP: >=1), every stream and prefix, every batch with labels exactly 0..k-1", "why_tests_cant": "The shipped test compares three fixed data sets at 10% tolerance; the claim is for every data set and every arrival order.", "anchors": ["src/cvi/modules/XB.py:XB._param_inc", "src/cvi/modules/XB.py:XB._param_batch", "src/cvi/modules/XB.py:XB._evaluate", "README.md: batch and incremental implementation are equivalent"]}
{"id": "C14", "title": "DB: incremental equals batch equals its definition", "statement": "After each sample of any stream, the value returned by a DB object is mean over clusters of the largest (S_i+S_j)/d_ij over other clusters, S the mean squared distance to the centroid, d the squared centroid distance, computed from all samples seen so far; with labels 0..k-1 (k>=2) the batch call returns that same value, so incremental and batch agree (exact arithmetic).", "quantifier": "every dimension (rCIP: >=1), every stream and prefix, every batch with labels exactly 0..k-1", "why_tests_cant": "The shipped test compares three fixed data sets at 10% tolerance; the claim is for every data set and every arrival order.", "anchors": ["src/cvi/modules/DB.py:DB._param_inc", "src/cvi/modules/DB.py:DB._param_batch", "src/cvi/modules/DB.py:DB._evaluate", "README.md: batch and incremental implementation are equivalent"]}
{"id": "C15", "title": "GD43: incremental equals batch equals its definition", "statement": "After each sample of any stream, the value returned by a GD43 object is smallest centroid distance over 2*largest mean squared scatter, computed from all samples seen so far; with labels 0..k-1 (k>=2) the batch call returns that same value, so incremental and batch agree (exact arithmetic).", "quantifier": "every dimension (rCIP: >=1), every stream and prefix, every batch with labels exactly 0..k-1", "why_tests_cant": "The shipped test compares three fixed data sets at 10% tolerance; the claim is for every data set and every arrival order.", "anchors": ["src/cvi/modules/GD43.py:GD43._param_inc", "src/cvi/modules/GD43.py:GD43._param_batch", "src/cvi/modules/GD43.py:GD43._evaluate", "README.md: batch and incremental implementation are equivalent"]}
{"id": "C16", "title": "GD53: incremental equals batch equals its definition", "statement": "After each sample of any stream, the value returned by a GD53 object is smallest pairwise (CP_i+CP_j)/(n_i+n_j) over 2*largest mean squared scatter, computed from all samples seen so far; with labels 0..k-1 (k>=2) the batch call returns that same value, so incremental and batch agree (exact arithmetic).", "quantifier": "every dimension (rCIP: >=1), every stream and prefix, every batch with labels exactly 0..k-1", "why_tests_cant": "The shipped test compares three fixed data sets at 10% tolerance; the claim is for every data set and every arrival order.", "anchors": ["src/cvi/modules/GD53.py:GD53._param_inc", "src/cvi/modules/GD53.py:GD53._param_batch", "src/cvi/modules/GD53.py:GD53._evaluate", "README.md: batch and incremental implementation are equivalent"]}
{"id": "C17", "title": "PS: incremental equals batch equals its definition", "statement": "After each sample of any stream, the value returned by a PS object is sum over clusters of n_i/n_max - exp(-(smallest squared centroid distance to another cluster)/beta), beta the mean squared distance of centroids to their mean, computed from all samples seen so far; with labels 0..k-1 (k>=2) the batch call returns that same value, so incremental and batch agree (exact arithmetic).", "quantifier": "every dimension (rCIP: >=1), every stream and prefix, every batch with labels exactly 0..k-1", "why_tests_cant": "The shipped test compares three fixed data sets at 10% tolerance; the claim is for every data set and every arrival order.", "anchors": ["src/cvi/modules/PS.py:PS._param_inc", "src/cvi/modules/PS.py:PS._param_batch", "src/cvi/modules/PS.py:PS._evaluate", "README.md: batch and incremental implementation are equivalent"]}
{"id": "C18", "title": "rCIP: incremental equals batch equals its definition", "statement": "After each sample of any stream, the value returned by a rCIP object is sum over cluster pairs of the Gaussian cross information potential of the regularised cluster covariances, computed from all samples seen so far; with labels 0..k-1 (k>=2) the batch call returns that same value, so incremental and batch agree (exact arithmetic).", "quantifier": "every dimension (rCIP: >=1), every stream and prefix, every batch with labels exactly 0..k-1", "why_tests_cant": "The shipped test compares three fixed data sets at 10% tolerance; the claim is for every data set and every arrival order.", "anchors": ["src/cvi/modules/rCIP.py:rCIP._param_inc", "src/cvi/modules/rCIP.py:rCIP._param_batch", "src/cvi/modules/rCIP.py:rCIP._evaluate", "README.md: batch and incremental implementation are equivalent"]}
{"id": "C19", "title": "cSIL: incremental equals batch equals its definition", "statement": "After each sample of any stream, the value returned by a cSIL object is the mean over clusters of (b-a)/max(a,b), a the mean squared distance of the cluster's own samples to its centroid, b the smallest such mean over the other clusters' samples; with labels 0..k-1 the batch call returns that same value, so incremental and batch agree (exact arithmetic).", "quantifier": "every dimension, every stream and prefix, every batch with labels exactly 0..k-1", "why_tests_cant": "The shipped test compares three fixed data sets at 10% tolerance.", "anchors": ["src/cvi/modules/cSIL.py:cSIL._param_inc", "src/cvi/modules/cSIL.py:cSIL._param_batch", "src/cvi/modules/cSIL.py:cSIL._evaluate"]}
{"id": "C20", "title": "Batch accepts any integer labels", "statement": "Batch get_cvi with at least two distinct labels returns the index of the partition whatever the integer label values are (gaps, one-based, negative), as incremental mode does.", "quantifier": "all nine classes, every batch with >=2 distinct labels", "why_tests_cant": "Ranges over all label sets; the tests shift their labels to start at 0.", "anchors": ["src/cvi/modules/CH.py:CH._param_batch", "src/cvi/modules/cSIL.py:cSIL._param_batch", "src/cvi/modules/DB.py:DB._param_batch", "src/cvi/modules/GD43.py:GD43._param_batch", "src/cvi/modules/GD53.py:GD53._param_batch", "src/cvi/modules/PS.py:PS._param_batch", "src/cvi/modules/rCIP.py:rCIP._param_batch", "src/cvi/modules/WB.py:WB._param_batch", "src/cvi/modules/XB.py:XB._param_batch"]}
{"id": "C21", "title": "Incremental result does not depend on arrival order", "statement": "The value returned after the last sample of a stream is the same for every permutation of the stream.", "quantifier": "all nine classes, every stream, every permutation", "why_tests_cant": "Factorially many orders.", "anchors": ["src/cvi/modules/CH.py:CH._param_inc", "src/cvi/modules/cSIL.py:cSIL._param_inc", "src/cvi/modules/DB.py:DB._param_inc", "src/cvi/modules/GD43.py:GD43._param_inc", "src/cvi/modules/GD53.py:GD53._param_inc", "src/cvi/modules/PS.py:PS._param_inc", "src/cvi/modules/rCIP.py:rCIP._param_inc", "src/cvi/modules/WB.py:WB._param_inc", "src/cvi/modules/XB.py:XB._param_inc"]}
{"id": "C22", "title": "Batch result does not depend on row order", "statement": "Batch get_cvi returns the same value when rows and labels are permuted together.", "quantifier": "all nine classes, every batch with labels 0..k-1, every permutation", "why_tests_cant": "Factorially many orders.", "anchors": ["src/cvi/modules/CH.py:CH._param_batch", "src/cvi/modules/cSIL.py:cSIL._param_batch", "src/cvi/modules/DB.py:DB._param_batch", "src/cvi/modules/GD43.py:GD43._param_batch", "src/cvi/modules/GD53.py:GD53._param_batch", "src/cvi/modules/PS.py:PS._param_batch", "src/cvi/modules/rCIP.py:rCIP._param_batch", "src/cvi/modules/WB.py:WB._param_batch", "src/cvi/modules/XB.py:XB._param_batch"]}
{"id": "C23", "title": "Results do not depend on the origin of the feature space", "statement": "Adding one constant vector to all samples does not change any returned value.", "quantifier": "all nine classes, every stream/batch, every translation vector", "why_tests_cant": "All translations and streams.", "anchors": ["src/cvi/modules/CH.py:CH._param_inc", "src/cvi/modules/cSIL.py:cSIL._param_inc", "src/cvi/modules/DB.py:DB._param_inc", "src/cvi/modules/GD43.py:GD43._param_inc", "src/cvi/modules/GD53.py:GD53._param_inc", "src/cvi/modules/PS.py:PS._param_inc", "src/cvi/modules/rCIP.py:rCIP._param_inc", "src/cvi/modules/WB.py:WB._param_inc", "src/cvi/modules/XB.py:XB._param_inc", "src/cvi/modules/CH.py:CH._param_batch", "src/cvi/modules/cSIL.py:cSIL._param_batch", "src/cvi/modules/DB.py:DB._param_batch", "src/cvi/modules/GD43.py:GD43._param_batch", "src/cvi/modules/GD53.py:GD53._param_batch", "src/cvi/modules/PS.py:PS._param_batch", "src/cvi/modules/rCIP.py:rCIP._param_batch", "src/cvi/modules/WB.py:WB._param_batch", "src/cvi/modules/XB.py:XB._param_batch"]}
{"id": "C24", "title": "Scaling law", "statement": "Multiplying all samples by a constant s != 0 leaves CH, WB, XB, DB, GD53, PS and (batch) cSIL unchanged and divides GD43 by |s|.", "quantifier": "every stream/batch, every non-zero scale", "why_tests_cant": "All scales and streams.", "anchors": ["src/cvi/modules/CH.py:CH._evaluate", "src/cvi/modules/cSIL.py:cSIL._evaluate", "src/cvi/modules/DB.py:DB._evaluate", "src/cvi/modules/GD43.py:GD43._evaluate", "src/cvi/modules/GD53.py:GD53._evaluate", "src/cvi/modules/PS.py:PS._evaluate", "src/cvi/modules/rCIP.py:rCIP._evaluate", "src/cvi/modules/WB.py:WB._evaluate", "src/cvi/modules/XB.py:XB._evaluate"]}
{"id": "C25", "title": "Isometry invariance", "statement": "Applying one orthogonal matrix to all samples (e.g. rotating, reflecting or reordering the features) does not change any returned value.", "quantifier": "all nine classes (cSIL in batch mode), every stream/batch, every orthogonal matrix", "why_tests_cant": "All matrices and streams.", "anchors": ["src/cvi/modules/CH.py:CH._evaluate", "src/cvi/modules/cSIL.py:cSIL._evaluate", "src/cvi/modules/DB.py:DB._evaluate", "src/cvi/modules/GD43.py:GD43._evaluate", "src/cvi/modules/GD53.py:GD53._evaluate", "src/cvi/modules/PS.py:PS._evaluate", "src/cvi/modules/rCIP.py:rCIP._evaluate", "src/cvi/modules/WB.py:WB._evaluate", "src/cvi/modules/XB.py:XB._evaluate"]}
{"id": "C26", "title": "One cluster scores zero", "statement": "While only one distinct label has been seen, every returned value is 0.0.", "quantifier": "all nine classes, every stream with a single distinct label", "why_tests_cant": "All such streams.", "anchors": ["src/cvi/modules/CH.py:CH._evaluate", "src/cvi/modules/cSIL.py:cSIL._evaluate", "src/cvi/modules/DB.py:DB._evaluate", "src/cvi/modules/GD43.py:GD43._evaluate", "src/cvi/modules/GD53.py:GD53._evaluate", "src/cvi/modules/PS.py:PS._evaluate", "src/cvi/modules/rCIP.py:rCIP._evaluate", "src/cvi/modules/WB.py:WB._evaluate", "src/cvi/modules/XB.py:XB._evaluate"]}
{"id": "C27", "title": "Indices defined as non-negative are never negative", "statement": "CH, WB, XB, DB, GD43, GD53 and rCIP never return a negative number (they may return +inf or NaN on degenerate data).", "quantifier": "the seven classes, every stream/batch", "why_tests_cant": "All data sets.", "anchors": ["src/cvi/modules/CH.py:CH._evaluate", "src/cvi/modules/WB.py:WB._evaluate", "src/cvi/modules/XB.py:XB._evaluate", "src/cvi/modules/DB.py:DB._evaluate", "src/cvi/modules/GD43.py:GD43._evaluate", "src/cvi/modules/GD53.py:GD53._evaluate", "src/cvi/modules/rCIP.py:rCIP._evaluate"]}
{"id": "C28", "title": "NaN and infinity appear exactly on degenerate partitions", "statement": "For two or more clusters a returned value is a finite number exactly when the partition is non-degenerate for that index: CH iff WGSS>0, WB iff BGSS>0, XB/DB iff all centroids are distinct, GD43/GD53 iff some cluster has non-zero scatter, PS iff centroids are not all equal, rCIP always. In particular CH returns NaN, not 0 or an error, while every cluster has exactly one sample.", "quantifier": "the eight classes, every stream/batch with >=2 clusters", "why_tests_cant": "Needs every degenerate configuration.", "anchors": ["src/cvi/modules/CH.py:CH._evaluate", "src/cvi/modules/cSIL.py:cSIL._evaluate", "src/cvi/modules/DB.py:DB._evaluate", "src/cvi/modules/GD43.py:GD43._evaluate", "src/cvi/modules/GD53.py:GD53._evaluate", "src/cvi/modules/PS.py:PS._evaluate", "src/cvi/modules/rCIP.py:rCIP._evaluate", "src/cvi/modules/WB.py:WB._evaluate", "src/cvi/modules/XB.py:XB._evaluate"]}
{"id": "C29", "title": "PS range", "statement": "With k>=2 clusters and centroids not all equal, PS is strictly between -k and k.", "quantifier": "every stream/batch", "why_tests_cant": "All data sets.", "anchors": ["src/cvi/modules/PS.py:PS._evaluate"]}
{"id": "C30", "title": "cSIL range", "statement": "With k>=2 clusters a cSIL value that is a number lies in [-1, 1].", "quantifier": "every stream/batch, both modes", "why_tests_cant": "All data sets.", "anchors": ["src/cvi/modules/cSIL.py:cSIL._evaluate", "src/cvi/modules/cSIL.py:cSIL._param_inc"]}
{"id": "C31", "title": "rCIP covariance matrices stay invertible", "statement": "rCIP never raises a singular-matrix error and, with two or more clusters, always returns a positive finite number, however degenerate the samples are (duplicates, collinear points, single-sample clusters).", "quantifier": "every dimension >=1, every stream/batch", "why_tests_cant": "All degenerate configurations in all dimensions.", "anchors": ["src/cvi/modules/rCIP.py:rCIP._param_inc", "src/cvi/modules/rCIP.py:rCIP._param_batch"]}
{"id": "C32", "title": "CH and WB agree with each other", "statement": "For the same data with k>=2 clusters and both values finite and non-zero, CH * WB = k (n-k)/(k-1).", "quantifier": "every stream/batch", "why_tests_cant": "Cross-class law over all data.", "anchors": ["src/cvi/modules/CH.py:CH._evaluate", "src/cvi/modules/WB.py:WB._evaluate"]}
{"id": "C33", "title": "Scatter is conserved", "statement": "At every point of every stream, within-cluster plus between-cluster scatter held by CH and WB objects equals the total scatter of the samples about their mean.", "quantifier": "every stream and prefix", "why_tests_cant": "All streams; a global conservation law over incremental updates.", "anchors": ["src/cvi/modules/CH.py:CH._param_inc", "src/cvi/modules/WB.py:WB._param_inc"]}
{"id": "C34", "title": "Bookkeeping counts are exact", "statement": "After any stream the object's number of clusters is the number of distinct labels, the per-cluster counts are the label multiplicities, their sum is the number of samples, and each stored centroid is the mean of that label's samples.", "quantifier": "all nine classes, every stream and prefix", "why_tests_cant": "All streams.", "anchors": ["src/cvi/modules/CH.py:CH._param_inc", "src/cvi/modules/cSIL.py:cSIL._param_inc", "src/cvi/modules/DB.py:DB._param_inc", "src/cvi/modules/GD43.py:GD43._param_inc", "src/cvi/modules/GD53.py:GD53._param_inc", "src/cvi/modules/PS.py:PS._param_inc", "src/cvi/modules/rCIP.py:rCIP._param_inc", "src/cvi/modules/WB.py:WB._param_inc", "src/cvi/modules/XB.py:XB._param_inc"]}
{"id": "C35", "title": "A sample only changes its own cluster", "statement": "Adding a sample leaves the count, centroid and compactness recorded for every other label unchanged.", "quantifier": "all nine classes, every state reached by a stream, every new sample", "why_tests_cant": "All reachable states.", "anchors": ["src/cvi/modules/CH.py:CH._param_inc", "src/cvi/modules/cSIL.py:cSIL._param_inc", "src/cvi/modules/DB.py:DB._param_inc", "src/cvi/modules/GD43.py:GD43._param_inc", "src/cvi/modules/GD53.py:GD53._param_inc", "src/cvi/modules/PS.py:PS._param_inc", "src/cvi/modules/rCIP.py:rCIP._param_inc", "src/cvi/modules/WB.py:WB._param_inc", "src/cvi/modules/XB.py:XB._param_inc"]}
{"id": "C36", "title": "The caller may reuse its sample buffer", "statement": "Overwriting the array passed to get_cvi after the call returns (a reused streaming buffer) does not change any later returned value.", "quantifier": "all nine classes, every interleaving of calls and buffer writes", "why_tests_cant": "All interleavings of writes and calls.", "anchors": ["src/cvi/modules/CH.py:CH._setup", "src/cvi/modules/WB.py:WB._setup", "src/cvi/modules/XB.py:XB._setup", "src/cvi/modules/DB.py:DB._setup", "src/cvi/modules/GD43.py:GD43._setup", "src/cvi/modules/GD53.py:GD53._setup"]}
{"id": "C37", "title": "Samples of the wrong length are rejected", "statement": "Once the feature dimension is fixed by the first sample, a sample of any other length makes get_cvi raise.", "quantifier": "all nine classes, every reachable state, every wrong length", "why_tests_cant": "Broadcasting makes particular lengths pass silently; needs all lengths and states.", "anchors": ["src/cvi/modules/CH.py:CH._param_inc", "src/cvi/modules/cSIL.py:cSIL._param_inc", "src/cvi/modules/DB.py:DB._param_inc", "src/cvi/modules/GD43.py:GD43._param_inc", "src/cvi/modules/GD53.py:GD53._param_inc", "src/cvi/modules/PS.py:PS._param_inc", "src/cvi/modules/rCIP.py:rCIP._param_inc", "src/cvi/modules/WB.py:WB._param_inc", "src/cvi/modules/XB.py:XB._param_inc"]}
{"id": "C38", "title": "Batch data and labels must have the same length", "statement": "Batch get_cvi raises if the number of labels differs from the number of rows.", "quantifier": "all nine classes, every mismatching pair", "why_tests_cant": "All mismatches.", "anchors": ["src/cvi/modules/CH.py:CH._param_batch", "src/cvi/modules/cSIL.py:cSIL._param_batch", "src/cvi/modules/DB.py:DB._param_batch", "src/cvi/modules/GD43.py:GD43._param_batch", "src/cvi/modules/GD53.py:GD53._param_batch", "src/cvi/modules/PS.py:PS._param_batch", "src/cvi/modules/rCIP.py:rCIP._param_batch", "src/cvi/modules/WB.py:WB._param_batch", "src/cvi/modules/XB.py:XB._param_batch"]}
{"id": "C39", "title": "Base class is abstract", "statement": "get_cvi on a bare CVI object raises NotImplementedError for 1-D data and for batches with >= 2 labels, and never returns a value, leaving the object unchanged.", "quantifier": "every state of a base-class object, every argument", "why_tests_cant": "All inputs.", "anchors": ["src/cvi/modules/_base.py:CVI"]}
{"id": "C40", "title": "Documentation decorator", "statement": "_add_docs(extra) returns the same function with extra appended to its docstring, for every function it is applied to, so the package imports in every interpreter mode (including -OO, which strips docstrings).", "quantifier": "every function, every docstring including none", "why_tests_cant": "Covers the docstring-free case, which normal test runs never execute.", "anchors": ["src/cvi/modules/_base.py:_add_docs"]}
{"id": "C41", "title": "compat CP_update computes centroid and compactness", "statement": "Starting from a cluster's exact size, centroid, compactness and zero G, compat CP_update (p=q=2) returns the exact size, centroid, compactness and zero G of the cluster with the new sample.", "quantifier": "every non-empty cluster in every dimension and every new sample", "why_tests_cant": "All clusters.", "anchors": ["src/cvi/compat/v0.py:CP_update", "src/cvi/compat/v0.py:cluster_center_update"]}
{"id": "C42", "title": "compat iPS returns the partition separation", "statement": "iPS.update returns the current partition separation of the clusters.", "quantifier": "every sequence of updates", "why_tests_cant": "The wrong value is silent; needs all sequences.", "anchors": ["src/cvi/compat/v0.py:iPS.update"]}
{"id": "C43", "title": "compat iXB agrees with XB", "statement": "iXB.update returns, after each sample, the Xie-Beni index of the samples so far.", "quantifier": "every sequence of updates with cluster numbers introduced in order", "why_tests_cant": "Differs only after centroids move apart; needs histories.", "anchors": ["src/cvi/compat/v0.py:iXB.update"]}
{"id": "C44", "title": "compat iCH accepts well-ordered streams", "statement": "iCH.update accepts every stream whose cluster numbers are introduced in order 0,1,2,... and returns the CH index.", "quantifier": "every well-ordered stream", "why_tests_cant": "All streams.", "anchors": ["src/cvi/compat/v0.py:iCH.update"]}
{"id": "C45", "title": "compat iGD43/iGD53 accept well-ordered streams", "statement": "iGD43/iGD53.update never raise on a stream whose cluster numbers are introduced in order.", "quantifier": "every well-ordered stream", "why_tests_cant": "All streams.", "anchors": ["src/cvi/compat/v0.py:iGD.update"]}
{"id": "C46", "title": "compat iDB accepts well-ordered streams", "statement": "iDB.update never raises on a stream whose cluster numbers are introduced in order.", "quantifier": "every well-ordered stream", "why_tests_cant": "All streams.", "anchors": ["src/cvi/compat/v0.py:iDB.update"]}
{"id": "C47", "title": "compat iSIL accepts well-ordered streams and does not modify its arguments", "statement": "iSIL.update never raises on a stream whose cluster numbers are introduced in order, and never writes to the caller's arrays.", "quantifier": "every well-ordered stream", "why_tests_cant": "All streams; side effects on arguments.", "anchors": ["src/cvi/compat/v0.py:iSIL.update", "src/cvi/compat/v0.py:iSIL.cp_update"]}
{"id": "C48", "title": "compat: out-of-order clusters are rejected without side effects", "statement": "iXB/iCH/iGD/iSIL/iDB.update with a cluster number larger than the number of clusters raises ValueError and leaves the object unchanged.", "quantifier": "every state, every too-large cluster number", "why_tests_cant": "All states.", "anchors": ["src/cvi/compat/v0.py:iXB.update", "src/cvi/compat/v0.py:iCH.update", "src/cvi/compat/v0.py:iGD.update", "src/cvi/compat/v0.py:iSIL.update", "src/cvi/compat/v0.py:iDB.update"]}
{"id": "C49", "title": "compat iCVI factory", "statement": "iCVI(name) builds an object for exactly the seven supported names and raises ValueError for every other string.", "quantifier": "every string", "why_tests_cant": "All strings.", "anchors": ["src/cvi/compat/v0.py:iCVI"]}
{"id": "C50", "title": "compat Cluster tracks its points", "statement": "After adding any equal-length points to a radial Cluster, center is their mean, len their number, min_distance/avg_distance the minimum/mean of the distances to them; with box=True the bounding box covers all points added.", "quantifier": "every sequence of add_point calls, radial and box modes", "why_tests_cant": "All sequences.", "anchors": ["src/cvi/compat/v0.py:Cluster"]}
{"id": "C51", "title": "compat Clusters.from_list builds the partition", "statement": "Clusters().from_list(X, C) yields one cluster per label holding its points.", "quantifier": "every pair of equal-length X and well-ordered C", "why_tests_cant": "All inputs.", "anchors": ["src/cvi/compat/v0.py:Clusters.from_list"]}
{"id": "C52", "title": "A constant feature changes nothing", "statement": "Appending to every sample a feature with the same value leaves every returned value unchanged, in incremental and batch mode (rCIP excepted: its definition contains the dimension).", "quantifier": "every stream, every constant, every class but rCIP, every label vector", "why_tests_cant": "The constant, the data and the history are arbitrary; a test fixes one data set.", "anchors": ["src/cvi/modules/*.py:_param_inc", "src/cvi/modules/*.py:_param_batch"]}
{"id": "C53", "title": "Repeated passes over the data", "statement": "Feeding the same data m times, in any order, gives the value of one pass for WB, XB, DB, GD43, GD53, PS and cSIL; CH is multiplied by (mn-k)/(n-k).", "quantifier": "every data set, every m >= 1, every interleaving of the passes", "why_tests_cant": "Unbounded m and all interleavings.", "anchors": ["src/cvi/modules/*.py:_param_inc", "src/cvi/modules/*.py:_evaluate"]}
{"id": "C54", "title": "GD53 lies between 0 and 1/2", "statement": "Every finite value returned by GD53 lies in [0, 1/2], and 1/2 is attained.", "quantifier": "every stream, incremental and batch", "why_tests_cant": "A bound over all inputs; the least upper bound cannot be found by sampling.", "anchors": ["src/cvi/modules/GD53.py:_evaluate"]}
{"id": "C55", "title": "rCIP is bounded", "statement": "Every finite value returned by rCIP lies between 0 and k(k-1)/2 * 10^6/sqrt((4 pi)^d), attained by coinciding single samples.", "quantifier": "every stream, every dimension, incremental and batch", "why_tests_cant": "A bound over all inputs; it rests on the regularisation term keeping every determinant above a fixed number.", "anchors": ["src/cvi/modules/rCIP.py:_setup", "src/cvi/modules/rCIP.py:_evaluate"]}
{"id": "C56", "title": "PS of two clusters depends on the sizes only", "statement": "For two clusters with different centroids PS returns 1 + min(n)/max(n) - 2 exp(-4), whatever the data.", "quantifier": "every data set with two clusters with different centroids", "why_tests_cant": "Independence of the data is a statement about all data.", "anchors": ["src/cvi/modules/PS.py:_evaluate"]}
{"id": "C57", "title": "Recorded compactness and covariance", "statement": "After every stream the attribute CP of each cluster is the scatter of exactly its samples and further samples never make it smaller (CH, WB, XB, DB, GD43, GD53); for cSIL it is the sum of their squared norms; rCIP's sigma is their regularised covariance.", "quantifier": "every stream, every class that keeps the attribute", "why_tests_cant": "Running updates over all histories.", "anchors": ["src/cvi/modules/*.py:_param_inc"]}
{"id": "C58", "title": "Batch bookkeeping", "statement": "After a batch call with at least two labels the object is set up, its label map is empty, it records the numbers of rows, features and labels, and entry i of its tables holds the count, mean and scatter (rCIP: regularised covariance) of the rows labelled i; with labels 0..k-1 these are what an object fed the rows one by one records.", "quantifier": "every data set with at least two labels (any integers), every class, whether the call returns or raises", "why_tests_cant": "All label vectors, including those for which the call returns NaN or raises.", "anchors": ["src/cvi/modules/*.py:_param_batch", "src/cvi/modules/_base.py:CVI.get_cvi"]}
{"id": "C59", "title": "Rejected calls leave no trace in a session", "statement": "A session that presents the samples of a stream and between them makes any number of calls with data of the wrong number of dimensions, one-label batches, label vectors for single samples, late batches, or samples of the wrong length for an existing cluster, returns exactly the values of the stream alone and ends with exactly the same object.", "quantifier": "every stream, every interleaving with any number of such calls, every class", "why_tests_cant": "All interleavings of unbounded length.", "anchors": ["src/cvi/modules/_base.py:CVI.get_cvi", "src/cvi/modules/*.py:_param_inc"]}
{"id": "C60", "title": "Missing values never produce a wrong number", "statement": "If some features of the samples are NaN (missing), feeding the samples raises nothing, and every value returned is either NaN or the value that would be returned for every way of filling in the missing features by numbers; hence where two fillings lead to different values NaN is returned. In batch mode: whenever a filling is evaluated to v, the array with the missing values is evaluated to NaN or to v.", "quantifier": "every stream of every length with any pattern of missing features, every way of filling them in, every class, both modes", "why_tests_cant": "Quantifies over all fillings of the missing features (a continuum) at once.", "anchors": ["src/cvi/modules/*.py:_param_inc", "src/cvi/modules/*.py:_param_batch", "src/cvi/modules/*.py:_evaluate"]}
{"id": "C61", "title": "A missing value shows in the result", "statement": "Once samples of two clusters have been presented and a feature of some sample is missing (NaN), the value returned is NaN: a missing value is never silently ignored. Before that the value is 0 (one cluster) or the value of the samples (no gap). In batch mode an array with a missing feature is evaluated to NaN whenever its completions are evaluated at all. (False for incremental GD53: a missing feature in the only sample of a cluster is ignored and an ordinary number is returned.)", "quantifier": "every stream of every length with any pattern of missing features, every prefix, every class, both modes", "why_tests_cant": "Needs every pattern of gaps and every stream; the NaN has to survive minima, maxima and branches on every input.", "anchors": ["src/cvi/modules/*.py:_param_inc", "src/cvi/modules/*.py:_param_batch", "src/cvi/modules/*.py:_evaluate", "src/cvi/modules/GD53.py:_param_inc"]}
{"id": "C62", "title": "The stream refines the recurrences in every arithmetic", "statement": "Whatever the float operations compute (any rounding, any summation order, any special values; nothing is assumed about them), feeding samples with the same number of features under any labels raises nothing and returns for each prefix exactly the value of a functional specification that folds over the samples of each cluster (eight classes). rCIP returns the values of its specification or raises an exception of the libraries: the power at rCIP.py:77, np.linalg.det or inv of the sum of the covariances of two different clusters, or d = 0.", "quantifier": "every arithmetic, every stream of every length, any labels, nine classes", "why_tests_cant": "A test runs one arithmetic (that of the machine it runs on) on a few streams; this holds for float32, float64, any BLAS and any rounding mode.", "anchors": ["src/cvi/modules/*.py:_param_inc", "src/cvi/modules/*.py:_evaluate"]}
{"id": "C63", "title": "A record depends on its own samples only, bit for bit", "statement": "After every successful stream, in every arithmetic, the count and centroid recorded for a label (compactness, cSIL's compactness and rCIP's covariance too) are computed from the samples of that label in their order of arrival; samples of other clusters, however interleaved, change no bit of them. Labels never presented have no record.", "quantifier": "every arithmetic, every stream, every interleaving, nine classes", "why_tests_cant": "All interleavings and all roundings at once.", "anchors": ["src/cvi/modules/*.py:_param_inc", "src/cvi/modules/*.py:_evaluate"]}
{"id": "C64", "title": "The table of distances is current in every arithmetic", "statement": "After every successful stream, in every arithmetic, the table D of XB, DB, GD43, GD53 and PS is square, symmetric and zero on its diagonal, and the entry of two labels is the distance computed from the records of these clusters as they are now: no entry is stale.", "quantifier": "every arithmetic, every stream, five classes", "why_tests_cant": "Staleness shows only for particular interleavings; the claim is for all of them and every rounding.", "anchors": ["src/cvi/modules/*.py:_param_inc", "src/cvi/modules/*.py:_evaluate"]}
{"id": "C65", "title": "The value does not depend on the interleaving, bit for bit", "statement": "If the order of first appearance of the labels and the order of samples within each cluster are kept, interleaving the clusters differently changes no bit of the final value, in every arithmetic with (x-y)^2 = (y-x)^2 and x+y = y+x (as IEEE floats). True for XB, DB, GD43, GD53, PS, and for rCIP if a @ inv @ a is even in a; false for CH, WB (running mean of all samples) and cSIL (stale matrix) as soon as there is rounding.", "quantifier": "every arithmetic with the symmetries, every pair of interleavings, nine classes", "why_tests_cant": "Differences in the last bits hide below the tolerance of a test, and there are exponentially many interleavings.", "anchors": ["src/cvi/modules/*.py:_param_inc", "src/cvi/modules/*.py:_evaluate"]}
{"id": "C66", "title": "The classes keep identical records", "statement": "Two objects of any two classes fed the same stream have the same label map, numbers of samples and clusters, counts and centroids, bit for bit in every arithmetic; CH, WB, XB, DB, GD43 and GD53 also the same compactness, auxiliary vectors and mean of all samples.", "quantifier": "every arithmetic, every stream, every pair of classes", "why_tests_cant": "Nine copies of the same text; equality to the last bit for all streams.", "anchors": ["src/cvi/modules/*.py:_param_inc", "src/cvi/modules/*.py:_evaluate"]}
{"id": "C67", "title": "rCIP accepts any number of features", "statement": "rCIP can be used with any number of features. False: (2 * np.pi) ** dim is a power of Python floats, which raises OverflowError from 387 features on, in both modes; the object has still seen no sample, so nothing is ever accepted. With 1 to 386 features the overflow never occurs.", "quantifier": "every number of features, every sample or data set, every arithmetic with the power of float64", "why_tests_cant": "The border is between 386 and 387 features; tests use two or three.", "anchors": ["src/cvi/modules/rCIP.py:77", "src/cvi/modules/rCIP.py:166"]}
{"id": "C68", "title": "The running centroids are accurate in float arithmetic", "statement": "In an arithmetic whose operations have relative error at most u (and absolute error eta where a product underflows), after any stream every feature of the recorded centroid of a cluster with n samples is finite and differs from the exact mean of the samples by at most (n-1)(4uM+3eta), where M bounds the features and 4un <= 1. The same for the mean of all samples kept by CH, WB, XB, DB, GD43 and GD53.", "quantifier": "every arithmetic with these error bounds (float64: u = 2^-53, eta = 2^-1075), every stream of bounded samples, every cluster and feature, nine classes", "why_tests_cant": "Rounding errors accumulate over the length of the stream; a test sees one stream and compares with a tolerance chosen by hand.", "anchors": ["src/cvi/modules/*.py:_param_inc"]}
{"id": "C69", "title": "The running compactness is accurate in float arithmetic", "statement": "In such an arithmetic, where moreover np.inner has relative error at most gamma, after any stream the compactness recorded for a cluster with n samples of d features bounded by M is finite and differs from the exact sum of squared distances of the samples to their mean by at most 128 gamma n^2 d M^2, for CH, WB, XB, DB, GD43 and GD53. So the running update CP + |x-v'|^2 + n|v-v'|^2 + 2<v-v',G> does not lose the compactness to cancellation.", "quantifier": "every arithmetic with these error bounds, every stream of bounded samples (128 gamma n <= 1, no overflow), every cluster, six classes", "why_tests_cant": "The update adds and subtracts correction terms of both signs; only an error analysis over all streams excludes catastrophic cancellation.", "anchors": ["src/cvi/modules/{CH,WB,XB,DB,GD43,GD53}.py:_param_inc"]}
{"id": "C70", "title": "A batch computes the written-down expressions in every arithmetic", "statement": "Whatever the float operations compute (any rounding, summation order, overflow), a batch call on an object that is not set up, with rows of one length and at least two different labels, raises nothing and returns exactly the float expression of a short specification over the rows of each cluster, for all classes but rCIP; PS raises ZeroDivisionError exactly if no label is among 0..k-1. rCIP returns a value of the specification, or raises an exception of the power (2 pi)**dim, of np.linalg.det or inv of the sum of the covariances of two different clusters, and that only if the specification has no value (or there are no features). The recorded counts, centroids, compactness and tables are those of the specification. Surplus rows without labels are allowed.", "quantifier": "every arithmetic, data set, label vector with two or more values, object not set up; nine classes", "why_tests_cant": "A test fixes one arithmetic and one data set and compares with a tolerance.", "anchors": ["src/cvi/modules/*.py:_setup_batch", "src/cvi/modules/*.py:_param_batch", "src/cvi/modules/*.py:_evaluate", "src/cvi/modules/_base.py:get_cvi"]}
{"id": "C71", "title": "What a batch value depends on, bit for bit", "statement": "The result of a batch depends only on the number k of different labels, on the rows of the clusters 0..k-1 (each in its order), for CH and XB on the number of rows and for CH and WB on the mean of all rows. In particular interleaving the clusters differently changes no bit of DB, GD43, GD53, PS, cSIL and rCIP. In contrast to exact arithmetic the batch value is not the incremental value: for every class there are data for which the two differ by rounding.", "quantifier": "every arithmetic, every two data sets with the same clusters; nine classes", "why_tests_cant": "Differences in the last bits hide below the tolerance of a test.", "anchors": ["src/cvi/modules/*.py:_setup_batch", "src/cvi/modules/*.py:_param_batch", "src/cvi/modules/*.py:_evaluate", "src/cvi/modules/_base.py:get_cvi"]}
{"id": "C72", "title": "Rejected calls leave no trace, in every arithmetic", "statement": "Take any stream of samples of the same length d that by itself raises nothing. Insert between its samples, any number of times, calls that are mistakes: data of the wrong number of dimensions, a batch with one label, a label vector with a single sample, a batch after the first sample, a sample of length neither d nor 1 with an existing label (d not 1). Each of them raises, the other calls return the values of the undisturbed stream bit for bit, and the object ends in the same state. A sample of wrong length with a new label also changes no attribute besides the label map, so a corrected sample with that label is treated as if nothing had happened. Also in every arithmetic: after a call that started an update (even one that failed, say because rCIP overflowed) a batch is refused without effect; a sample of the wrong length is rejected after any history unless it has one element and a known label.", "quantifier": "every arithmetic, every stream, every number and position of mistakes, nine classes", "why_tests_cant": "The number of ways to interleave mistakes with samples is infinite, and a trace left in a low bit escapes a test with a tolerance.", "anchors": ["src/cvi/modules/_base.py:get_cvi", "src/cvi/modules/*.py:_param_inc", "src/cvi/modules/_base.py:LabelMap"]}
{"id": "C73", "title": "Centroids and compactnesses are accurate in IEEE-754 binary64", "statement": "IEEE-754 binary64 (gradual underflow, overflow, infinities, NaN, signed zeros) satisfies the standard model of C68 and C69 with u = 2^-53 and eta = 2^-1075; inner products of d features have relative error 2du in whatever order the products are added and whether or not they are fused. So after any stream with features bounded by M <= 2^1000 each recorded centroid of n <= 2^50 samples is within (n-1)(2^-51 M + 3*2^-1075) of the mean, and for 2^-400 <= M <= 2^450 and d*n <= 2^44 each recorded compactness is within 2^-45 (d n M)^2 of the sum of squared distances to the mean.", "quantifier": "all streams of binary64 samples within the stated range, any number of clusters, any interleaving, every class (compactness: CH, WB, XB, DB, GD43, GD53), every order of summation in np.inner", "why_tests_cant": "a bound on rounding errors over all streams and all evaluation orders of the linked BLAS cannot be sampled; a test sees one machine and one order", "anchors": ["src/cvi/modules/*.py:_param_inc"]}
{"id": "C74", "title": "NaN and infinity appear exactly on degenerate partitions, in binary64", "statement": "C28 in IEEE-754 binary64: for two or more clusters a returned value of CH, WB, XB, DB, GD43 or GD53 is a finite number exactly when the partition is non-degenerate for that index; in particular CH returns NaN while every cluster has exactly one sample.", "quantifier": "all streams of binary64 samples", "why_tests_cant": "the failure needs data whose running mean is not reproduced exactly, e.g. five samples 0.1 in one cluster; with 2, 3 or 4 equal samples nothing is wrong", "anchors": ["src/cvi/modules/{CH,WB,XB,DB,GD43,GD53}.py:_param_inc", "src/cvi/modules/{CH,WB,XB,DB,GD43,GD53}.py:_evaluate"]}
{"id": "C75", "title": "The values of CH, WB and XB are accurate in the standard model of floats", "statement": "In every arithmetic that satisfies the standard model (relative error u per operation, gamma for an inner product, np.sum in any order), the value CH, WB or XB returns after a stream of n <= N samples with d features bounded by M and two or more clusters is finite, the exact index is a positive number, and the relative error is at most 430 gamma N / beta, provided the quantities divided (WGSS and BGSS, or for XB the least separation) are at least beta times n d M^2 (d M^2 for the separation) and 1000 gamma N <= beta.", "quantifier": "all streams within the stated range, any number of clusters, any interleaving, every arithmetic that satisfies the standard model", "why_tests_cant": "an error bound over all streams and roundings cannot be sampled; the recursive formulas cancel, so the size of the error is not visible from the formula", "anchors": ["src/cvi/modules/{CH,WB,XB}.py:_param_inc", "src/cvi/modules/{CH,WB,XB}.py:_evaluate"]}
{"id": "C76", "title": "The values of GD43, GD53 and DB are accurate in the standard model of floats", "statement": "In the same setting the values of GD43 and GD53 have relative error at most 430 gamma N / beta and that of DB at most 450 gamma N / beta, provided the separations (GD43, DB), pooled mean scatters (GD53), sums of two mean scatters (DB) and the largest mean scatter (GD43) that are divided are at least beta times the largest possible.", "quantifier": "all streams within the stated range, any number of clusters, any interleaving, every arithmetic that satisfies the standard model", "why_tests_cant": "minima and maxima are taken over perturbed numbers: a test sees one choice of the minimising pair", "anchors": ["src/cvi/modules/{DB,GD43,GD53}.py:_param_inc", "src/cvi/modules/{DB,GD43,GD53}.py:_evaluate"]}
{"id": "C77", "title": "The values of the six common indices are accurate in IEEE-754 binary64", "statement": "binary64 satisfies all of the standard model used in C75 and C76: division, correctly rounded integer quotients, square roots, minimum and maximum, np.sum and np.inner in any order. So for features bounded by M with 2^-400 <= M <= 2^450, d n <= 2^44 numbers in all and two or more clusters the value CH, WB, XB, DB, GD43 or GD53 returns has relative error at most 2^-43 d n / beta, where beta is the size of the divided quantities relative to the largest possible, beta >= 2^-42 d n.", "quantifier": "all streams of binary64 samples within the stated range, every order of summation", "why_tests_cant": "a bound on rounding errors over all streams and all evaluation orders of the linked BLAS cannot be sampled", "anchors": ["src/cvi/modules/{CH,WB,XB,DB,GD43,GD53}.py:_param_inc", "src/cvi/modules/{CH,WB,XB,DB,GD43,GD53}.py:_evaluate"]}
{"id": "C78", "title": "A batch is accurate in the standard model of floats", "statement": "In every arithmetic that satisfies the standard model (np.mean of a column and np.sum of an array with relative error 2u per number, in any order), one call with samples labelled 0..k-1, k >= 2, raises nothing on an object that has not been set up, and the number CH, WB, XB, DB, GD43 or GD53 returns is finite and has relative error at most 450 gamma N / beta with respect to the index of the data set.", "quantifier": "all arithmetics satisfying the standard model, all data sets within the stated range, all states of the object before set-up", "why_tests_cant": "a bound on rounding errors over all data sets, arithmetics and evaluation orders cannot be sampled", "anchors": ["src/cvi/modules/{CH,WB,XB,DB,GD43,GD53}.py:_param_batch", "src/cvi/modules/{CH,WB,XB,DB,GD43,GD53}.py:_evaluate"]}
{"id": "C79", "title": "In binary64 batches are accurate, and incremental and batch values agree", "statement": "Under the conditions of C77 and with labels 0..k-1, one call in binary64 has relative error at most 2^-43 d n / beta; and the last number of an incremental run over the same samples differs from it by at most 2^-41 d n / beta of the batch value.", "quantifier": "all data sets of binary64 samples within the stated range, every order of summation in numpy", "why_tests_cant": "the project's tests compare both modes on a few data sets with a tolerance; no test shows a tolerance that suffices for all data", "anchors": ["src/cvi/modules/{CH,WB,XB,DB,GD43,GD53}.py:_param_batch", "src/cvi/modules/{CH,WB,XB,DB,GD43,GD53}.py:_evaluate", "src/cvi/modules/{CH,WB,XB,DB,GD43,GD53}.py:_param_inc"]}
{"id": "C80", "title": "Non-negative indices are never negative in binary64", "statement": "In IEEE-754 binary64, CH, WB, XB, DB, GD43 and GD53 never return a number less than zero: neither in batch mode, for any data including NaN, infinities and subnormal numbers and any order of summation, nor after any incremental run.", "quantifier": "all data, all labels, all orders of summation in numpy", "why_tests_cant": "The incremental compactness is updated with 2 * inner(v_old - v_new, G), which may be negative; it takes two features of very different size and particular roundings to see it, and then the quotient has the wrong sign (or is -inf).", "anchors": ["src/cvi/modules/{CH,WB,XB,DB,GD43,GD53}.py:_evaluate", "src/cvi/modules/{CH,WB,XB,DB,GD43,GD53}.py:_param_inc", "src/cvi/modules/{CH,WB,XB,DB,GD43,GD53}.py:_param_batch"]}
{"id": "C81", "title": "PS is accurate in the standard model of floats", "statement": "In every arithmetic that satisfies the standard model with an np.exp of absolute error at most kappa on non-positive numbers, the last number of an incremental run of PS, and the number one call with labels 0..k-1 returns, are finite and differ from the index of the data set by at most k (750 gamma N / beta + kappa), if k >= 2 and the mean squared distance of the centroids to their mean is at least beta d M^2.", "quantifier": "all arithmetics satisfying the standard model, all data sets within the stated range, both modes", "why_tests_cant": "the value is a sum of exponentials of quotients of accumulated sums that may cancel; no sample of data sets bounds its error", "anchors": ["src/cvi/modules/PS.py:_param_inc", "src/cvi/modules/PS.py:_param_batch", "src/cvi/modules/PS.py:_evaluate"]}
{"id": "C82", "title": "In binary64 PS is accurate, and incremental and batch values agree", "statement": "In binary64, with any order of summation in numpy and an np.exp of absolute error at most kappa, the error of PS in both modes is at most k (2^-42 d n / beta + kappa), so the two modes differ by at most twice this.", "quantifier": "all data sets of binary64 samples within the stated range, every order of summation in numpy", "why_tests_cant": "the tests compare both modes on a few data sets with a tolerance; no test shows a tolerance that suffices for all data", "anchors": ["src/cvi/modules/PS.py:_param_inc", "src/cvi/modules/PS.py:_param_batch", "src/cvi/modules/PS.py:_evaluate"]}
{"id": "C83", "title": "A batch of cSIL is accurate in floats", "statement": "If for every cluster the larger of the two mean squared distances in its coefficient is at least beta d M^2, one call of cSIL with labels 0..k-1, k >= 2, returns a finite number with absolute error at most 470 gamma N / beta in the standard model, and at most 2^-43 d n / beta in binary64.", "quantifier": "all arithmetics satisfying the standard model; all data sets of binary64 samples within the stated range, every order of summation", "why_tests_cant": "the coefficients are quotients of differences of rounded means, and the branch on np.any(S) depends on rounded numbers; no sample of data sets covers them", "anchors": ["src/cvi/modules/cSIL.py:_param_batch", "src/cvi/modules/cSIL.py:_evaluate"]}
{"id": "C84", "title": "The covariances of rCIP are accurate in floats", "statement": "After an incremental run of rCIP without an exception, and after one call with labels 0..k-1 without an exception, every entry of the covariance recorded for a cluster is finite and differs from that of the unbiased covariance of the samples of the cluster plus delta = 10^(-12/d) on the diagonal by at most 104 gamma N (M^2 + 2 delta) + kappa delta in the standard model, and at most 2^-45 d n (M^2 + 2 delta) in binary64.", "quantifier": "all arithmetics satisfying the standard model; all data sets of binary64 samples within the stated range, every order of summation in numpy", "why_tests_cant": "the covariance is updated sample by sample with the differences to two different rounded centroids; the errors accumulate over any number of samples", "anchors": ["src/cvi/modules/rCIP.py:_param_inc", "src/cvi/modules/rCIP.py:_param_batch"]}
{"id": "C85", "title": "rCIP does not raise, and its value is accurate in floats", "statement": "If the rounding errors of the covariances and the backward errors of np.linalg.det and np.linalg.inv are small (factor theta <= 1/128) against delta = 10^(-12/d), the smallest eigenvalue a covariance may have, then no call of rCIP raises, neither incrementally nor with labels 0..k-1 at once, and the number returned is finite and differs from the index of the data set by at most 174 theta times the value that rCIP would have if all centroids coincided. In binary64 the two modes differ by at most twice this.", "quantifier": "all arithmetics satisfying the standard model; all data sets of binary64 samples within the stated range, every order of summation in numpy, every numerically stable det and inv", "why_tests_cant": "the sum of two covariances may be nearly singular; whether the inverse is good enough depends on the data in a way that tests on a few data sets cannot show", "anchors": ["src/cvi/modules/rCIP.py:_param_inc", "src/cvi/modules/rCIP.py:_param_batch", "src/cvi/modules/rCIP.py:_evaluate"]}
{"id": "C86", "title": "Values that are not finite show in the result", "statement": "In binary64, once a sample has a feature that is infinite or NaN, and two or more clusters exist, the value returned is NaN: it can not be mistaken for a result. This holds of CH, WB, PS, cSIL (incrementally), of XB, DB, GD43, GD53 if the cluster of the sample has another one, and of all classes but rCIP for batches. It is false for incremental XB, DB, GD43, GD53 with an infinite sample alone in its cluster: they return a positive number that depends on the other clusters only, and with two clusters XB and DB return 0, the best possible value.", "quantifier": "all data sets of binary64 samples, including infinities, NaN and overflow in later operations; every order of summation in numpy; every k >= 2", "why_tests_cant": "an overflow upstream turns up in one record in millions; tests use finite features", "anchors": ["src/cvi/modules/XB.py:_param_inc", "src/cvi/modules/XB.py:_evaluate", "src/cvi/modules/DB.py:_evaluate", "src/cvi/modules/GD43.py:_evaluate", "src/cvi/modules/GD53.py:_evaluate", "src/cvi/modules/CH.py:_evaluate", "src/cvi/modules/PS.py:_evaluate", "src/cvi/modules/cSIL.py:_evaluate"]}
{"id": "C87", "title": "Memory does not grow with the number of samples", "statement": "After any stream of samples fed one by one, the number of array entries held by an object (label map included) is a fixed function of the class, the number k of distinct labels and the number d of features: at most 4(k+1)(k+d+1), for rCIP (k+1)d^2 more. It does not depend on the number, order or values of the samples.", "quantifier": "all nine classes; all streams, labels, dimensions; every floating point arithmetic (for rCIP: streams that raise no exception of the libraries)", "why_tests_cant": "a leak of one entry per sample is invisible on the few hundred samples of a test data set", "anchors": ["src/cvi/modules/_base.py:_setup", "src/cvi/modules/CH.py:_param_inc", "src/cvi/modules/XB.py:_param_inc", "src/cvi/modules/DB.py:_evaluate", "src/cvi/modules/PS.py:_evaluate", "src/cvi/modules/cSIL.py:_evaluate", "src/cvi/modules/rCIP.py:_param_inc"]}
{"id": "C88", "title": "Incremental cSIL in floats is what it is in exact arithmetic", "statement": "Samples one by one, at least two clusters. If for every cluster the larger of the two numbers of its coefficient in exact arithmetic is at least beta d M^2, the last value of cSIL is finite and differs from what the code returns in exact arithmetic (CSIL.actual, C19) by at most 3500 gamma N / beta^2 in the standard model, and 2^-40 d n / beta^2 in binary64. So rounding does not hide the error of the update: on four points the value in binary64 differs from the index by more than 3/1000.", "quantifier": "all arithmetics satisfying the standard model; all streams of binary64 samples within the stated range, every order of summation", "why_tests_cant": "a test that sees a wrong value cannot tell a wrong formula from rounding; a bound on the rounding error can", "anchors": ["src/cvi/modules/cSIL.py:_param_inc", "src/cvi/modules/cSIL.py:_evaluate"]}
{"id": "C89", "title": "In binary64 order, origin, orientation and unit of the data matter only through rounding", "statement": "Let the exact data set of T be that of S up to the order of the samples and a similarity x -> A x + b of the feature space (A^T A = q I; T may have more features), q = 1 for GD43. Then in binary64 the last values of CH, WB, XB, DB, GD43, GD53 for S and T, and the values of one batch each, differ by at most 2^-42 (d n / beta + d' n / beta') relatively; PS in both modes and batches of cSIL by corresponding absolute bounds; for rCIP this is shown for the order of the samples. Bit for bit the values do depend on the order.", "quantifier": "all pairs of data sets of binary64 samples so related and within the stated ranges; every order of summation; both modes", "why_tests_cant": "tests compare a few orders of one data set with a tolerance chosen by hand", "anchors": ["src/cvi/modules/_base.py:get_cvi", "src/cvi/modules/CH.py:_param_inc", "src/cvi/modules/XB.py:_param_inc", "src/cvi/modules/DB.py:_evaluate", "src/cvi/modules/PS.py:_evaluate", "src/cvi/modules/rCIP.py:_evaluate"]}
{"id": "C90", "title": "Reversing the sign of features changes no bit of any value in binary64", "statement": "In binary64, multiplying any set of features by -1 in all samples changes no bit of any value of an incremental run of any class but rCIP, nor of a batch, for every finite, infinite, NaN, subnormal or signed-zero sample and every clustering (and neither raises where the other does not). rCIP: the same when all features are reversed. numpy's sums may be associated in any way that depends on the lengths only, with or without fused multiply-add.", "quantifier": "for all binary64 samples, labels, dimensions, sets of features, orders of summation and all nine classes", "why_tests_cant": "Reversing the sign turns some zeros from +0 into -0 and others not (x - x is +0 either way), so equality of bits is not evident; sampled data contain no zeros, and a test with a tolerance sees no difference of bits.", "anchors": ["src/cvi/modules/_base.py:get_cvi", "src/cvi/modules/CH.py:_param_inc", "src/cvi/modules/CH.py:_param_batch", "src/cvi/modules/PS.py:_evaluate", "src/cvi/modules/cSIL.py:_param_inc", "src/cvi/modules/rCIP.py:_param_inc", "src/cvi/modules/rCIP.py:_evaluate"]}
{"id": "C91", "title": "Samples of integers give the values of the same samples as floats, while their squares fit", "statement": "get_cvi accepts arrays of any numeric type. Full statement: samples given as 64-bit integers give the values of the same samples given as floats. It is false: incremental cSIL computes np.inner(sample, sample) and rCIP's batch mode np.transpose(subset) @ subset in 64-bit integers, which wrap around, so the value for the samples 3037000500 and 0 in two clusters is -inf instead of 1, and three samples 2**32 give NaN. True: for incremental cSIL all values and the object are the same, for samples of integers or integers mixed with floats, if 2*N*M < 2**63 in exact arithmetic and 2*N*M < 2**53 in binary64, where N is the number of samples and M bounds the squared norms of the samples of integers; for rCIP's batch mode if N*M < 2**63 and N*M < 2**53.", "quantifier": "for all streams of samples of integers and floats of one dimension, all labels; for all 2-D arrays of integers and all label arrays; for every order of additions inside np.inner and @", "why_tests_cant": "Tests use float data files. The wrap-around raises no exception and needs coordinates above 3e9 or many samples; that nothing changes below needs the exactness of integers in floats for every order of additions.", "anchors": ["src/cvi/modules/cSIL.py:_param_inc", "src/cvi/modules/rCIP.py:_param_batch"]}
{"id": "C92", "title": "compat iCH: the outcome of every stream", "statement": "For every sequence of updates, iCH.update accepts a label exactly if it is 0 or a valid (possibly negative) place of a list as long as the number of samples labelled 0 so far; a larger label raises ValueError, any other IndexError. For accepted streams each call returns the value computed from clusters in which every sample labelled 0 is a cluster of its own and from between-group terms that are as old as the last sample with that label.", "quantifier": "every stream of finite samples with any integer labels, accepted or not, of any length", "why_tests_cant": "The exact set of accepted streams and the exact wrong values are statements about all sequences of labels, negative ones included; a test sees a few.", "anchors": ["src/cvi/compat/v0.py:iCH.update"]}
{"id": "C93", "title": "compat iSIL: the value of every call, and what it does to the caller's arrays", "statement": "For every sequence of updates with cluster numbers introduced in order, in which no array is presented again after it opened a cluster, iSIL.update raises ValueError while there is one cluster and otherwise returns a value given in terms of the samples only: every cluster's first sample counted twice, matrix entries as old as the last sample of one of their clusters, inf if there was none since the last cluster was opened, and an extra squared norm in some. That value is NaN or between -1 and 1; NaN exactly if a coefficient is inf/inf or 0/0, so always when a second or later cluster is opened. It is not the silhouette: with two clusters the coefficient of the cluster that did not get the last sample has the opposite sign. The first array of each cluster ends up holding the sum of the cluster's samples, its own counted twice; no other array is changed.", "quantifier": "every list of array numbers and labels of any length, every finite content of the arrays, any dimension", "why_tests_cant": "The value depends on the whole history of which cluster was touched when; tests compare a few runs with a tolerance and do not look at the arrays passed.", "anchors": ["src/cvi/compat/v0.py:iSIL.update", "src/cvi/compat/v0.py:iSIL.s_ij_new", "src/cvi/compat/v0.py:iSIL.sci", "src/cvi/compat/v0.py:iSIL.cp_update"]}
{"id": "C94", "title": "Changing the unit of length by a power of two changes no bit of any value in binary64", "statement": "In binary64, if all data are multiplied by 2^k (k any integer), every value of an incremental run of any class but rCIP, and every batch value, is the same to the last bit (for GD43, which is a reciprocal length: multiplied by exactly 2^-k), provided no operation the value depends on overflows, or is inexact with a result below 2^-1022, in either run. Whether one does is computed by the same program over numbers that carry a flag; forgetting the flags gives the binary64 run. Neither run raises where the other does not. The condition is needed (data times 2^-600 give nan for XB), and a factor 3 changes bits.", "quantifier": "for all binary64 samples (also infinite and NaN), labels, dimensions, integers k, orders of summation and the eight classes other than rCIP, in both modes", "why_tests_cant": "The claim is about bits for every k and every order of summation; a test with a tolerance cannot see it, and sampled data do not show where the first underflow enters.", "anchors": ["src/cvi/modules/_base.py:get_cvi", "src/cvi/modules/CH.py:_param_inc", "src/cvi/modules/CH.py:_param_batch", "src/cvi/modules/XB.py:_evaluate", "src/cvi/modules/PS.py:_evaluate", "src/cvi/modules/cSIL.py:_param_inc", "src/cvi/modules/cSIL.py:_evaluate", "src/cvi/modules/GD43.py:_evaluate", "src/cvi/modules/GD53.py:_evaluate", "src/cvi/modules/DB.py:_evaluate", "src/cvi/modules/WB.py:_evaluate"]}
{"id": "C95", "title": "Labels of any kind in incremental mode", "statement": "In incremental mode labels may be any hashable Python objects: the outcomes (values and exceptions, for samples of any shape) are those of the same stream with every label replaced by the position of its first occurrence, so labels of one kind can be replaced one to one by labels of another. Every class but rCIP then returns the written-down value of the samples so far. A label that is not hashable raises TypeError and changes nothing.", "quantifier": "for all types of labels, all streams of samples and labels (hashable or not), all classes and arithmetics", "why_tests_cant": "Tests use integer labels; strings, floats, tuples or mixtures of them are not tried, and not in all orders of occurrence.", "anchors": ["src/cvi/modules/_base.py:LabelMap.get_internal_label", "src/cvi/modules/_base.py:get_cvi", "src/cvi/modules/CH.py:_param_inc"]}
{"id": "C96", "title": "Samples in single precision: incremental XB, DB, GD43, GD53 and PS", "statement": "If the samples are arrays of float32, incremental XB, DB, GD43, GD53 and PS accept them, and a value is bit for bit the one for the same samples as doubles unless it depends on a product (1 / n_new) * sample that is another number in single precision. The centroid of a cluster of n <= 2^24 samples of size at most M is within (2^-22 + n 2^-49) M of the true mean: the error made in single precision does not grow with n. The full claim, that the type makes no difference, is false: three samples 16777214 and one 16777215 in two clusters give XB above 1/6 instead of 0, DB above 1/5 instead of 0, GD43 below 4 instead of inf, GD53 below 1/2 instead of NaN.", "quantifier": "for all finite (C96_partial: all) binary64 samples, labels, dimensions, orders of summation and the five classes", "why_tests_cant": "Tests use doubles; with float32 the difference is at most a few units in the seventh digit on ordinary data and needs clusters tight compared with their distance from the origin to become visible.", "anchors": ["src/cvi/modules/XB.py:_param_inc", "src/cvi/modules/DB.py:_param_inc", "src/cvi/modules/GD43.py:_param_inc", "src/cvi/modules/GD53.py:_param_inc", "src/cvi/modules/PS.py:_param_inc", "src/cvi/modules/_base.py:get_cvi"]}
{"id": "C97", "title": "The text of the package, interpreted: incremental mode", "statement": "The source text of LabelMap, CVI and the nine classes, translated mechanically into syntax trees and run by an interpreter, does in incremental mode what the model does. The constructor turns any memory into the model's fresh object. For CH, WB, XB, DB, GD43, GD53, PS the outcome on any stream (values or exception class) is the model's; for cSIL and rCIP the values and the object are the model's whenever it returns, and the text raises whenever it raises. Hence on samples of equal length every class but rCIP returns, in every arithmetic satisfying a few equations on integer quotients (the reals, binary64), exactly the expressions of C62; rCIP does so or is stopped by a library exception. A single call agrees on any object, not only on reachable ones. Label vectors with a single sample, matrices after setup or with one label, and data of other dimensions raise and change nothing.", "quantifier": "for all streams of samples of any lengths and any integer labels, all classes, all arithmetics satisfying Laws, all contents of the memory before __init__", "why_tests_cant": "A hand-written model may disagree with the program text in a place no test exercises; a proof about the text itself leaves no such place.", "anchors": ["src/cvi/modules/_base.py:31-48", "src/cvi/modules/_base.py:56-181", "src/cvi/modules/CH.py:32-129", "src/cvi/modules/rCIP.py:30-152", "src/cvi/modules/cSIL.py:30-178"]}
{"id": "C98", "title": "The text of the package, interpreted: batch mode and any sequence of calls", "statement": "The embedded source text, run by the interpreter, does in batch mode what the model does. For every class but rCIP, a call of get_cvi with a rectangular matrix and any labels, on any object whose counts are a list where the class is PS, returns the model's value and leaves the model's object, or raises the model's exception; for rCIP it returns and leaves the same, or both raise. This extends to any sequence of calls of any kind (samples, samples with label vectors, matrices, arrays of other dimensions) on a new object: the text returns what the model returns, or stops at the exception at which the model stops. Hence a batch of rows of equal length under at least two labels returns, in every arithmetic satisfying Laws, exactly the expressions of C70 (PS: if a label is among 0..k-1, otherwise ZeroDivisionError); rCIP does so or is stopped by a library exception.", "quantifier": "for all matrices, label vectors, objects (reachable or not), sequences of calls, classes, arithmetics satisfying Laws, and contents of the memory before __init__", "why_tests_cant": "A hand-written model may disagree with the program text in a place no test exercises; sequences that mix batch and incremental calls are unbounded.", "anchors": ["src/cvi/modules/_base.py:118-181", "src/cvi/modules/CH.py:132-158", "src/cvi/modules/DB.py:153-193", "src/cvi/modules/PS.py:124-155", "src/cvi/modules/rCIP.py:155-205", "src/cvi/modules/cSIL.py:180-215"]}
{"id": "C99", "title": "The text of the older interface, interpreted", "statement": "The source text of src/cvi/compat/v0.py, embedded as a syntax tree and run by an interpreter that keeps Python's and numpy's numbers apart (a plain division by zero raises, numpy's does not), does what the hand-written model of the older interface does: norm22, cluster_center_update and CP_update compute the model's functions or raise the same exception; iXB, iPS, iCH, iGD43, iGD53 and iDB, constructed and updated with any sequence of samples (of any lengths, with any entries) under any integer labels, return at every call the number the model returns, or raise the model's exception at the same call. Hence what was proved of the model holds of the text: iXB returns the Xie-Beni index with the least separation of the whole history, iPS returns 0, iCH returns the stale values of C92, and iGD43, iGD53 and iDB raise at the second sample of a cluster.", "quantifier": "for all sequences of samples and labels, and all contents of the object before __init__", "why_tests_cant": "A hand-written model may disagree with the program text in a place no test exercises, for instance a division by a plain zero or a line that is never reached.", "anchors": ["src/cvi/compat/v0.py:150-246", "src/cvi/compat/v0.py:249-324", "src/cvi/compat/v0.py:327-403", "src/cvi/compat/v0.py:406-488", "src/cvi/compat/v0.py:491-602", "src/cvi/compat/v0.py:905-1000"]}
{"id": "C100", "title": "The text of the older interface's iSIL and Cluster, interpreted", "statement": "The source text of iSIL and of Cluster in src/cvi/compat/v0.py, embedded and interpreted as in C99, does what the model does, also when the caller catches every exception and carries on with the same object. iSIL: with arrays of one length, any contents and any integer labels, every update returns the model's number or raises the model's exception, and the object and the caller's arrays end up as in the model; hence the values and the arrays described by C93 are those of the text, and the first update on a new object raises ValueError after doubling the caller's array. Cluster: add_point gives the model's outcomes and object for any points, indices and flags; min_distance, avg_distance, center_distance and within_bounding_box return the model's values or raise its exceptions; hence without a bounding box they compute the least and the average distance to the points and the distance to their mean.", "quantifier": "for all lists of calls with all exceptions caught; all array contents, labels, points, indices and flags", "why_tests_cant": "A session with caught exceptions has unboundedly many histories, and the written-to arrays belong to the caller; a test sees one history.", "anchors": ["src/cvi/compat/v0.py:17-136", "src/cvi/compat/v0.py:605-902"]}
{"id": "C101", "title": "The text of the older interface when exceptions are caught", "statement": "Construct an iXB, iPS, iCH, iGD43, iGD53 or iDB with the embedded source text and call update for any sequence of samples and labels, catching every exception and carrying on with the same object, in whatever condition the exception left it. Every call of the text returns the number the model returns or raises the exception the model raises, and the objects agree at the end (for iXB but for the entries of min_v_i, which are always set before they are read). Hence, whatever happened before: every number iPS, iGD43 or iGD53 returns is 0; iDB counts every call, returns 0 for the next new cluster and raises for every other label, changing nothing but the count; iGD43 and iGD53 reject a label that is too large and keep their object.", "quantifier": "for all sequences of samples (any lengths, any entries) and integer labels, with any exceptions caught", "why_tests_cant": "What an object does after an exception depends on the statement that raised and on everything before; tests usually stop at the first exception.", "anchors": ["src/cvi/compat/v0.py:249-324", "src/cvi/compat/v0.py:327-403", "src/cvi/compat/v0.py:406-488", "src/cvi/compat/v0.py:491-602", "src/cvi/compat/v0.py:905-1000"]}
{"id": "C102", "title": "End to end: the text of the package returns the defined indices", "statement": "The embedded source text, run by the interpreter, compared with the definitions without the model in between. In exact arithmetic: on any stream, after every sample, the text of every class but cSIL returns the index of the samples so far; in batch mode with labels 0..k-1, k >= 2, the text of all nine returns the index of the data set; the text of cSIL returns 0 in batch mode and -50 in incremental mode on one data set. In any arithmetic: replacing the labels through an injective function changes no returned value and does not change whether the text raises. In binary64, under the conditions of C77, C79, C82, C83: the text of CH, WB, XB, DB, GD43, GD53 is within a relative error of 2^-43*d*n/beta of the index in both modes, PS within an absolute error in both modes, cSIL in batch mode, rCIP in both modes under the conditions of C85 if its two constants are computed by the powers of the library; the incremental text of cSIL is more than 3/1000 off on four points.", "quantifier": "every stream of any length and dimension; every injective function on labels; every arithmetic (labels); every binary64 library with the stated accuracy", "why_tests_cant": "Each statement is about all data sets, and connects the program text itself with the mathematical definition of the index.", "anchors": ["src/cvi/modules/_base.py:CVI.get_cvi", "src/cvi/modules/CH.py", "src/cvi/modules/cSIL.py"]}
