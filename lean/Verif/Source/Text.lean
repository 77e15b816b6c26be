import Verif.Source.Lang

/-!
# The text of the package

Written by `tools/embed.py` from the files of src/cvi/modules.
-/

namespace Verif.Source

namespace LabelMap

/-- `LabelMap.__init__`, _base.py:28-29. -/
def init : Method where
  params := []
  body :=
  [py| .newDict .map ]

/-- `LabelMap.get_internal_label`, _base.py:31-48. -/
def get_internal_label : Method where
  params := [.label]
  body :=
  [py| .assign .internal_label .none;
    .ite (.cmp .isIn (.name .label) (.self .map))
    [py| .assign .internal_label (.item (.self .map) (.cons (.name .label) .nil)) ]
    [py| .assign .internal_label (.call .py_len (.cons (.call .m_items (.cons (.self .map) .nil)) .nil));
      .setSelfItem .map (.cons (.name .label) .nil) (.name .internal_label) ];
    .ret (.name .internal_label) ]

end LabelMap

namespace CVI

/-- `CVI.__init__`, _base.py:56-70. -/
def init : Method where
  params := []
  body :=
  [py| .newMap ._label_map;
    .setSelf ._dim (.int 0);
    .setSelf ._n_samples (.int 0);
    .setSelf ._n (.seq .nil);
    .setSelf ._v (.call .np_zeros (.cons (.seq (.cons (.int 0) (.cons (.int 0) .nil))) .nil));
    .setSelf ._CP (.seq .nil);
    .setSelf ._G (.call .np_zeros (.cons (.seq (.cons (.int 0) (.cons (.int 0) .nil))) .nil));
    .setSelf ._n_clusters (.int 0);
    .setSelf .criterion_value (.float 0 1);
    .setSelf ._is_setup (.bool false) ]

/-- `CVI._setup`, _base.py:72-90. -/
def _setup : Method where
  params := [.sample]
  body :=
  [py| .setSelf ._dim (.call .py_len (.cons (.name .sample) .nil));
    .setSelf ._v (.call .np_zeros (.cons (.seq (.cons (.int 0) (.cons (.self ._dim) .nil))) .nil));
    .setSelf ._G (.call .np_zeros (.cons (.seq (.cons (.int 0) (.cons (.self ._dim) .nil))) .nil));
    .setSelf ._is_setup (.bool true) ]

/-- `CVI._setup_batch`, _base.py:92-104. -/
def _setup_batch : Method where
  params := [.data]
  body :=
  [py| .unpackSelf ._n_samples ._dim (.attr (.name .data) .a_shape);
    .setSelf ._is_setup (.bool true) ]

/-- `CVI._param_inc`, _base.py:107-108. -/
def _param_inc : Method where
  params := [.sample, .label]
  body :=
  [py| .raise .notImplementedError ]

/-- `CVI._param_batch`, _base.py:111-112. -/
def _param_batch : Method where
  params := [.data, .labels]
  body :=
  [py| .raise .notImplementedError ]

/-- `CVI._evaluate`, _base.py:115-116. -/
def _evaluate : Method where
  params := []
  body :=
  [py| .raise .notImplementedError ]

/-- `CVI.get_cvi`, _base.py:118-181. -/
def get_cvi : Method where
  params := [.data, .label]
  body :=
  [py| .ite (.cmp .eq (.attr (.name .data) .a_ndim) (.int 1))
    [py| .doCall .self_param_inc (.cons (.name .data) (.cons (.name .label) .nil)) ]
    [py| .ite (.cmp .eq (.attr (.name .data) .a_ndim) (.int 2))
      [py| .ite (.not (.self ._is_setup))
        [py| .ite (.not (.cmp .gt (.call .py_len (.cons (.call .np_unique (.cons (.name .label) .nil)) .nil)) (.int 1)))
          [py| .raise .valueError ]
          .nil;
          .doCall .self_param_batch (.cons (.name .data) (.cons (.name .label) .nil)) ]
        [py| .raise .valueError ] ]
      [py| .raise .valueError ] ];
    .doCall .self_evaluate .nil;
    .assign .criterion_value (.self .criterion_value);
    .ret (.name .criterion_value) ]

end CVI

namespace CH

/-- `CH.__init__`, CH.py:32-44. -/
def init : Method where
  params := []
  body :=
  [py| .doCall .super__init__ .nil;
    .setSelf ._mu (.call .np_zeros (.cons (.seq (.cons (.int 0) .nil)) .nil));
    .setSelf ._SEP (.call .np_zeros (.cons (.seq (.cons (.int 0) .nil)) .nil));
    .setSelf ._BGSS (.float 0 1);
    .setSelf ._WGSS (.float 0 1) ]

/-- `CH._setup`, CH.py:47-57. -/
def _setup : Method where
  params := [.sample]
  body :=
  [py| .doCall .super_setup (.cons (.name .sample) .nil);
    .setSelf ._SEP (.call .np_zeros (.cons (.seq (.cons (.self ._dim) .nil)) .nil));
    .setSelf ._mu (.name .sample) ]

/-- `CH._param_inc`, CH.py:60-129. -/
def _param_inc : Method where
  params := [.sample, .label]
  body :=
  [py| .bindCall .i_label .get_internal_label (.cons (.name .label) .nil);
    .assign .n_samples_new (.bin .add (.self ._n_samples) (.int 1));
    .ite (.cmp .eq (.self ._n_samples) (.int 0))
    [py| .doCall .self_setup (.cons (.name .sample) .nil) ]
    [py| .setSelf ._mu (.bin .add (.bin .mul (.bin .sub (.int 1) (.bin .div (.int 1) (.name .n_samples_new))) (.self ._mu)) (.bin .mul (.bin .div (.int 1) (.name .n_samples_new)) (.name .sample))) ];
    .ite (.cmp .gt (.name .i_label) (.bin .sub (.self ._n_clusters) (.int 1)))
    [py| .assign .n_new (.int 1);
      .assign .v_new (.name .sample);
      .assign .CP_new (.float 0 1);
      .assign .G_new (.call .np_zeros (.cons (.self ._dim) .nil));
      .augSelf .add ._n_clusters (.int 1);
      .append ._n (.name .n_new);
      .append ._CP (.name .CP_new);
      .setSelf ._v (.call .np_vstack (.cons (.seq (.cons (.self ._v) (.cons (.name .v_new) .nil))) .nil));
      .setSelf ._G (.call .np_vstack (.cons (.seq (.cons (.self ._G) (.cons (.name .G_new) .nil))) .nil)) ]
    [py| .assign .n_new (.bin .add (.item (.self ._n) (.cons (.name .i_label) .nil)) (.int 1));
      .assign .v_new (.bin .add (.bin .mul (.bin .sub (.int 1) (.bin .div (.int 1) (.name .n_new))) (.item (.self ._v) (.cons (.name .i_label) (.cons .colon .nil)))) (.bin .mul (.bin .div (.int 1) (.name .n_new)) (.name .sample)));
      .assign .delta_v (.bin .sub (.item (.self ._v) (.cons (.name .i_label) (.cons .colon .nil))) (.name .v_new));
      .assign .diff_x_v (.bin .sub (.name .sample) (.name .v_new));
      .assign .CP_new (.bin .add (.bin .add (.bin .add (.item (.self ._CP) (.cons (.name .i_label) .nil)) (.call .np_inner (.cons (.name .diff_x_v) (.cons (.name .diff_x_v) .nil)))) (.bin .mul (.item (.self ._n) (.cons (.name .i_label) .nil)) (.call .np_inner (.cons (.name .delta_v) (.cons (.name .delta_v) .nil))))) (.bin .mul (.int 2) (.call .np_inner (.cons (.name .delta_v) (.cons (.item (.self ._G) (.cons (.name .i_label) (.cons .colon .nil))) .nil)))));
      .assign .G_new (.bin .add (.bin .add (.item (.self ._G) (.cons (.name .i_label) (.cons .colon .nil))) (.name .diff_x_v)) (.bin .mul (.item (.self ._n) (.cons (.name .i_label) .nil)) (.name .delta_v)));
      .setSelfItem ._n (.cons (.name .i_label) .nil) (.name .n_new);
      .setSelfItem ._v (.cons (.name .i_label) (.cons .colon .nil)) (.name .v_new);
      .setSelfItem ._CP (.cons (.name .i_label) .nil) (.name .CP_new);
      .setSelfItem ._G (.cons (.name .i_label) (.cons .colon .nil)) (.name .G_new) ];
    .setSelf ._n_samples (.name .n_samples_new);
    .setSelf ._SEP (.call .np_array (.cons (.comp (.bin .mul (.item (.self ._n) (.cons (.name .ix) .nil)) (.call .py_sum (.cons (.bin .pow (.bin .sub (.item (.self ._v) (.cons (.name .ix) (.cons .colon .nil))) (.self ._mu)) (.int 2)) .nil))) .ix (.call .py_range (.cons (.self ._n_clusters) .nil))) .nil)) ]

/-- `CH._param_batch`, CH.py:132-158. -/
def _param_batch : Method where
  params := [.data, .labels]
  body :=
  [py| .doCall .super_setup_batch (.cons (.name .data) .nil);
    .setSelf ._mu (.call .np_mean_axis (.cons (.name .data) (.cons (.int 0) .nil)));
    .assign .u (.call .np_unique (.cons (.name .labels) .nil));
    .setSelf ._n_clusters (.attr (.name .u) .a_size);
    .setSelf ._n (.call .np_zeros_dtype (.cons (.self ._n_clusters) (.cons (.typ .int_) .nil)));
    .setSelf ._v (.call .np_zeros (.cons (.seq (.cons (.self ._n_clusters) (.cons (.self ._dim) .nil))) .nil));
    .setSelf ._CP (.call .np_zeros (.cons (.self ._n_clusters) .nil));
    .setSelf ._SEP (.call .np_zeros (.cons (.self ._n_clusters) .nil));
    .loop .ix (.call .py_range (.cons (.self ._n_clusters) .nil))
    [py| .assign .subset_indices (.compIf (.name .x) .x (.call .py_range (.cons (.call .py_len (.cons (.name .labels) .nil)) .nil)) (.cmp .eq (.item (.name .labels) (.cons (.name .x) .nil)) (.name .ix)));
      .assign .subset (.item (.name .data) (.cons (.name .subset_indices) (.cons .colon .nil)));
      .setSelfItem ._n (.cons (.name .ix) .nil) (.item (.attr (.name .subset) .a_shape) (.cons (.int 0) .nil));
      .setSelfItem ._v (.cons (.name .ix) (.cons .colon .nil)) (.call .np_mean_axis (.cons (.name .subset) (.cons (.int 0) .nil)));
      .assign .diff_x_v (.bin .sub (.name .subset) (.bin .mul (.item (.self ._v) (.cons (.name .ix) (.cons .colon .nil))) (.call .np_ones (.cons (.seq (.cons (.item (.self ._n) (.cons (.name .ix) .nil)) (.cons (.int 1) .nil))) .nil))));
      .setSelfItem ._CP (.cons (.name .ix) .nil) (.call .np_sum (.cons (.bin .pow (.name .diff_x_v) (.int 2)) .nil));
      .setSelfItem ._SEP (.cons (.name .ix) .nil) (.bin .mul (.item (.self ._n) (.cons (.name .ix) .nil)) (.call .np_sum (.cons (.bin .pow (.bin .sub (.item (.self ._v) (.cons (.name .ix) (.cons .colon .nil))) (.self ._mu)) (.int 2)) .nil))) ] ]

/-- `CH._evaluate`, CH.py:161-178. -/
def _evaluate : Method where
  params := []
  body :=
  [py| .ite (.cmp .gt (.self ._n_clusters) (.int 1))
    [py| .setSelf ._WGSS (.call .py_sum (.cons (.self ._CP) .nil));
      .setSelf ._BGSS (.call .py_sum (.cons (.self ._SEP) .nil));
      .setSelf .criterion_value (.bin .mul (.bin .div (.self ._BGSS) (.self ._WGSS)) (.bin .div (.bin .sub (.self ._n_samples) (.self ._n_clusters)) (.bin .sub (.self ._n_clusters) (.int 1)))) ]
    [py| .setSelf ._BGSS (.float 0 1);
      .setSelf .criterion_value (.float 0 1) ] ]

end CH

namespace WB

/-- `WB.__init__`, WB.py:34-46. -/
def init : Method where
  params := []
  body :=
  [py| .doCall .super__init__ .nil;
    .setSelf ._mu (.call .np_zeros (.cons (.seq (.cons (.int 0) .nil)) .nil));
    .setSelf ._SEP (.call .np_zeros (.cons (.seq (.cons (.int 0) .nil)) .nil));
    .setSelf ._BGSS (.float 0 1);
    .setSelf ._WGSS (.float 0 1) ]

/-- `WB._setup`, WB.py:49-59. -/
def _setup : Method where
  params := [.sample]
  body :=
  [py| .doCall .super_setup (.cons (.name .sample) .nil);
    .setSelf ._SEP (.call .np_zeros (.cons (.seq (.cons (.self ._dim) .nil)) .nil));
    .setSelf ._mu (.name .sample) ]

/-- `WB._param_inc`, WB.py:62-131. -/
def _param_inc : Method where
  params := [.sample, .label]
  body :=
  [py| .bindCall .i_label .get_internal_label (.cons (.name .label) .nil);
    .assign .n_samples_new (.bin .add (.self ._n_samples) (.int 1));
    .ite (.cmp .eq (.self ._n_samples) (.int 0))
    [py| .doCall .self_setup (.cons (.name .sample) .nil) ]
    [py| .setSelf ._mu (.bin .add (.bin .mul (.bin .sub (.int 1) (.bin .div (.int 1) (.name .n_samples_new))) (.self ._mu)) (.bin .mul (.bin .div (.int 1) (.name .n_samples_new)) (.name .sample))) ];
    .ite (.cmp .gt (.name .i_label) (.bin .sub (.self ._n_clusters) (.int 1)))
    [py| .assign .n_new (.int 1);
      .assign .v_new (.name .sample);
      .assign .CP_new (.float 0 1);
      .assign .G_new (.call .np_zeros (.cons (.self ._dim) .nil));
      .augSelf .add ._n_clusters (.int 1);
      .append ._n (.name .n_new);
      .append ._CP (.name .CP_new);
      .setSelf ._v (.call .np_vstack (.cons (.seq (.cons (.self ._v) (.cons (.name .v_new) .nil))) .nil));
      .setSelf ._G (.call .np_vstack (.cons (.seq (.cons (.self ._G) (.cons (.name .G_new) .nil))) .nil)) ]
    [py| .assign .n_new (.bin .add (.item (.self ._n) (.cons (.name .i_label) .nil)) (.int 1));
      .assign .v_new (.bin .add (.bin .mul (.bin .sub (.int 1) (.bin .div (.int 1) (.name .n_new))) (.item (.self ._v) (.cons (.name .i_label) (.cons .colon .nil)))) (.bin .mul (.bin .div (.int 1) (.name .n_new)) (.name .sample)));
      .assign .delta_v (.bin .sub (.item (.self ._v) (.cons (.name .i_label) (.cons .colon .nil))) (.name .v_new));
      .assign .diff_x_v (.bin .sub (.name .sample) (.name .v_new));
      .assign .CP_new (.bin .add (.bin .add (.bin .add (.item (.self ._CP) (.cons (.name .i_label) .nil)) (.call .np_inner (.cons (.name .diff_x_v) (.cons (.name .diff_x_v) .nil)))) (.bin .mul (.item (.self ._n) (.cons (.name .i_label) .nil)) (.call .np_inner (.cons (.name .delta_v) (.cons (.name .delta_v) .nil))))) (.bin .mul (.int 2) (.call .np_inner (.cons (.name .delta_v) (.cons (.item (.self ._G) (.cons (.name .i_label) (.cons .colon .nil))) .nil)))));
      .assign .G_new (.bin .add (.bin .add (.item (.self ._G) (.cons (.name .i_label) (.cons .colon .nil))) (.name .diff_x_v)) (.bin .mul (.item (.self ._n) (.cons (.name .i_label) .nil)) (.name .delta_v)));
      .setSelfItem ._n (.cons (.name .i_label) .nil) (.name .n_new);
      .setSelfItem ._v (.cons (.name .i_label) (.cons .colon .nil)) (.name .v_new);
      .setSelfItem ._CP (.cons (.name .i_label) .nil) (.name .CP_new);
      .setSelfItem ._G (.cons (.name .i_label) (.cons .colon .nil)) (.name .G_new) ];
    .setSelf ._n_samples (.name .n_samples_new);
    .setSelf ._SEP (.call .np_array (.cons (.comp (.bin .mul (.item (.self ._n) (.cons (.name .ix) .nil)) (.call .py_sum (.cons (.bin .pow (.bin .sub (.item (.self ._v) (.cons (.name .ix) (.cons .colon .nil))) (.self ._mu)) (.int 2)) .nil))) .ix (.call .py_range (.cons (.self ._n_clusters) .nil))) .nil)) ]

/-- `WB._param_batch`, WB.py:134-160. -/
def _param_batch : Method where
  params := [.data, .labels]
  body :=
  [py| .doCall .super_setup_batch (.cons (.name .data) .nil);
    .setSelf ._mu (.call .np_mean_axis (.cons (.name .data) (.cons (.int 0) .nil)));
    .assign .u (.call .np_unique (.cons (.name .labels) .nil));
    .setSelf ._n_clusters (.attr (.name .u) .a_size);
    .setSelf ._n (.call .np_zeros_dtype (.cons (.self ._n_clusters) (.cons (.typ .int_) .nil)));
    .setSelf ._v (.call .np_zeros (.cons (.seq (.cons (.self ._n_clusters) (.cons (.self ._dim) .nil))) .nil));
    .setSelf ._CP (.call .np_zeros (.cons (.self ._n_clusters) .nil));
    .setSelf ._SEP (.call .np_zeros (.cons (.self ._n_clusters) .nil));
    .loop .ix (.call .py_range (.cons (.self ._n_clusters) .nil))
    [py| .assign .subset_indices (.compIf (.name .x) .x (.call .py_range (.cons (.call .py_len (.cons (.name .labels) .nil)) .nil)) (.cmp .eq (.item (.name .labels) (.cons (.name .x) .nil)) (.name .ix)));
      .assign .subset (.item (.name .data) (.cons (.name .subset_indices) (.cons .colon .nil)));
      .setSelfItem ._n (.cons (.name .ix) .nil) (.item (.attr (.name .subset) .a_shape) (.cons (.int 0) .nil));
      .setSelfItem ._v (.cons (.name .ix) (.cons .colon .nil)) (.call .np_mean_axis (.cons (.name .subset) (.cons (.int 0) .nil)));
      .assign .diff_x_v (.bin .sub (.name .subset) (.bin .mul (.item (.self ._v) (.cons (.name .ix) (.cons .colon .nil))) (.call .np_ones (.cons (.seq (.cons (.item (.self ._n) (.cons (.name .ix) .nil)) (.cons (.int 1) .nil))) .nil))));
      .setSelfItem ._CP (.cons (.name .ix) .nil) (.call .np_sum (.cons (.bin .pow (.name .diff_x_v) (.int 2)) .nil));
      .setSelfItem ._SEP (.cons (.name .ix) .nil) (.bin .mul (.item (.self ._n) (.cons (.name .ix) .nil)) (.call .np_sum (.cons (.bin .pow (.bin .sub (.item (.self ._v) (.cons (.name .ix) (.cons .colon .nil))) (.self ._mu)) (.int 2)) .nil))) ] ]

/-- `WB._evaluate`, WB.py:163-179. -/
def _evaluate : Method where
  params := []
  body :=
  [py| .ite (.cmp .gt (.self ._n_clusters) (.int 1))
    [py| .setSelf ._WGSS (.call .py_sum (.cons (.self ._CP) .nil));
      .setSelf ._BGSS (.call .py_sum (.cons (.self ._SEP) .nil));
      .setSelf .criterion_value (.bin .mul (.bin .div (.self ._WGSS) (.self ._BGSS)) (.self ._n_clusters)) ]
    [py| .setSelf ._BGSS (.float 0 1);
      .setSelf .criterion_value (.float 0 1) ] ]

end WB

namespace XB

/-- `XB.__init__`, XB.py:30-42. -/
def init : Method where
  params := []
  body :=
  [py| .doCall .super__init__ .nil;
    .setSelf ._mu (.call .np_zeros (.cons (.seq (.cons (.int 0) .nil)) .nil));
    .setSelf ._SEP (.call .np_zeros (.cons (.seq (.cons (.int 0) .nil)) .nil));
    .setSelf ._D (.call .np_zeros (.cons (.seq (.cons (.int 0) (.cons (.int 0) .nil))) .nil));
    .setSelf ._WGSS (.float 0 1) ]

/-- `XB._setup`, XB.py:45-55. -/
def _setup : Method where
  params := [.sample]
  body :=
  [py| .doCall .super_setup (.cons (.name .sample) .nil);
    .setSelf ._SEP (.call .np_zeros (.cons (.seq (.cons (.self ._dim) .nil)) .nil));
    .setSelf ._mu (.name .sample) ]

/-- `XB._param_inc`, XB.py:58-147. -/
def _param_inc : Method where
  params := [.sample, .label]
  body :=
  [py| .bindCall .i_label .get_internal_label (.cons (.name .label) .nil);
    .assign .n_samples_new (.bin .add (.self ._n_samples) (.int 1));
    .ite (.cmp .eq (.self ._n_samples) (.int 0))
    [py| .doCall .self_setup (.cons (.name .sample) .nil) ]
    [py| .setSelf ._mu (.bin .add (.bin .mul (.bin .sub (.int 1) (.bin .div (.int 1) (.name .n_samples_new))) (.self ._mu)) (.bin .mul (.bin .div (.int 1) (.name .n_samples_new)) (.name .sample))) ];
    .ite (.cmp .gt (.name .i_label) (.bin .sub (.self ._n_clusters) (.int 1)))
    [py| .assign .n_new (.int 1);
      .assign .v_new (.name .sample);
      .assign .CP_new (.float 0 1);
      .assign .G_new (.call .np_zeros (.cons (.self ._dim) .nil));
      .ite (.cmp .eq (.self ._n_clusters) (.int 0))
      [py| .assign .D_new (.call .np_zeros (.cons (.seq (.cons (.int 1) (.cons (.int 1) .nil))) .nil)) ]
      [py| .assign .D_new (.call .np_zeros (.cons (.seq (.cons (.bin .add (.self ._n_clusters) (.int 1)) (.cons (.bin .add (.self ._n_clusters) (.int 1)) .nil))) .nil));
        .setItem .D_new (.cons (.slice (.int 0) (.self ._n_clusters)) (.cons (.slice (.int 0) (.self ._n_clusters)) .nil)) (.self ._D);
        .assign .d_column_new (.call .np_zeros (.cons (.bin .add (.self ._n_clusters) (.int 1)) .nil));
        .loop .jx (.call .py_range (.cons (.self ._n_clusters) .nil))
        [py| .setItem .d_column_new (.cons (.name .jx) .nil) (.call .np_sum (.cons (.bin .pow (.bin .sub (.name .v_new) (.item (.self ._v) (.cons (.name .jx) (.cons .colon .nil)))) (.int 2)) .nil)) ];
        .setItem .D_new (.cons (.name .i_label) (.cons .colon .nil)) (.name .d_column_new);
        .setItem .D_new (.cons .colon (.cons (.name .i_label) .nil)) (.name .d_column_new) ];
      .augSelf .add ._n_clusters (.int 1);
      .append ._n (.name .n_new);
      .append ._CP (.name .CP_new);
      .setSelf ._v (.call .np_vstack (.cons (.seq (.cons (.self ._v) (.cons (.name .v_new) .nil))) .nil));
      .setSelf ._G (.call .np_vstack (.cons (.seq (.cons (.self ._G) (.cons (.name .G_new) .nil))) .nil));
      .setSelf ._D (.name .D_new) ]
    [py| .assign .n_new (.bin .add (.item (.self ._n) (.cons (.name .i_label) .nil)) (.int 1));
      .assign .v_new (.bin .add (.bin .mul (.bin .sub (.int 1) (.bin .div (.int 1) (.name .n_new))) (.item (.self ._v) (.cons (.name .i_label) (.cons .colon .nil)))) (.bin .mul (.bin .div (.int 1) (.name .n_new)) (.name .sample)));
      .assign .delta_v (.bin .sub (.item (.self ._v) (.cons (.name .i_label) (.cons .colon .nil))) (.name .v_new));
      .assign .diff_x_v (.bin .sub (.name .sample) (.name .v_new));
      .assign .CP_new (.bin .add (.bin .add (.bin .add (.item (.self ._CP) (.cons (.name .i_label) .nil)) (.call .np_inner (.cons (.name .diff_x_v) (.cons (.name .diff_x_v) .nil)))) (.bin .mul (.item (.self ._n) (.cons (.name .i_label) .nil)) (.call .np_inner (.cons (.name .delta_v) (.cons (.name .delta_v) .nil))))) (.bin .mul (.int 2) (.call .np_inner (.cons (.name .delta_v) (.cons (.item (.self ._G) (.cons (.name .i_label) (.cons .colon .nil))) .nil)))));
      .assign .G_new (.bin .add (.bin .add (.item (.self ._G) (.cons (.name .i_label) (.cons .colon .nil))) (.name .diff_x_v)) (.bin .mul (.item (.self ._n) (.cons (.name .i_label) .nil)) (.name .delta_v)));
      .assign .d_column_new (.call .np_zeros (.cons (.self ._n_clusters) .nil));
      .loop .jx (.call .py_range (.cons (.self ._n_clusters) .nil))
      [py| .ite (.cmp .eq (.name .jx) (.name .i_label))
        [py| .cont ]
        .nil;
        .setItem .d_column_new (.cons (.name .jx) .nil) (.call .np_sum (.cons (.bin .pow (.bin .sub (.name .v_new) (.item (.self ._v) (.cons (.name .jx) (.cons .colon .nil)))) (.int 2)) .nil)) ];
      .setSelfItem ._n (.cons (.name .i_label) .nil) (.name .n_new);
      .setSelfItem ._v (.cons (.name .i_label) (.cons .colon .nil)) (.name .v_new);
      .setSelfItem ._CP (.cons (.name .i_label) .nil) (.name .CP_new);
      .setSelfItem ._G (.cons (.name .i_label) (.cons .colon .nil)) (.name .G_new);
      .setSelfItem ._D (.cons (.name .i_label) (.cons .colon .nil)) (.name .d_column_new);
      .setSelfItem ._D (.cons .colon (.cons (.name .i_label) .nil)) (.name .d_column_new) ];
    .setSelf ._n_samples (.name .n_samples_new) ]

/-- `XB._param_batch`, XB.py:150-181. -/
def _param_batch : Method where
  params := [.data, .labels]
  body :=
  [py| .doCall .super_setup_batch (.cons (.name .data) .nil);
    .setSelf ._mu (.call .np_mean_axis (.cons (.name .data) (.cons (.int 0) .nil)));
    .assign .u (.call .np_unique (.cons (.name .labels) .nil));
    .setSelf ._n_clusters (.attr (.name .u) .a_size);
    .setSelf ._n (.call .np_zeros_dtype (.cons (.self ._n_clusters) (.cons (.typ .int_) .nil)));
    .setSelf ._v (.call .np_zeros (.cons (.seq (.cons (.self ._n_clusters) (.cons (.self ._dim) .nil))) .nil));
    .setSelf ._CP (.call .np_zeros (.cons (.self ._n_clusters) .nil));
    .setSelf ._D (.call .np_zeros (.cons (.seq (.cons (.self ._n_clusters) (.cons (.self ._n_clusters) .nil))) .nil));
    .loop .ix (.call .py_range (.cons (.self ._n_clusters) .nil))
    [py| .assign .subset_indices (.compIf (.name .x) .x (.call .py_range (.cons (.call .py_len (.cons (.name .labels) .nil)) .nil)) (.cmp .eq (.item (.name .labels) (.cons (.name .x) .nil)) (.name .ix)));
      .assign .subset (.item (.name .data) (.cons (.name .subset_indices) (.cons .colon .nil)));
      .setSelfItem ._n (.cons (.name .ix) .nil) (.item (.attr (.name .subset) .a_shape) (.cons (.int 0) .nil));
      .setSelfItem ._v (.cons (.name .ix) (.cons .colon .nil)) (.call .np_mean_axis (.cons (.name .subset) (.cons (.int 0) .nil)));
      .assign .diff_x_v (.bin .sub (.name .subset) (.bin .mul (.item (.self ._v) (.cons (.name .ix) (.cons .colon .nil))) (.call .np_ones (.cons (.seq (.cons (.item (.self ._n) (.cons (.name .ix) .nil)) (.cons (.int 1) .nil))) .nil))));
      .setSelfItem ._CP (.cons (.name .ix) .nil) (.call .np_sum (.cons (.bin .pow (.name .diff_x_v) (.int 2)) .nil)) ];
    .loop .ix (.call .py_range (.cons (.bin .sub (.self ._n_clusters) (.int 1)) .nil))
    [py| .loop .jx (.call .py_range (.cons (.bin .add (.name .ix) (.int 1)) (.cons (.self ._n_clusters) .nil)))
      [py| .setSelfItem ._D (.cons (.name .ix) (.cons (.name .jx) .nil)) (.call .np_sum (.cons (.bin .pow (.bin .sub (.item (.self ._v) (.cons (.name .ix) (.cons .colon .nil))) (.item (.self ._v) (.cons (.name .jx) (.cons .colon .nil)))) (.int 2)) .nil)) ] ] ]

/-- `XB._evaluate`, XB.py:184-206. -/
def _evaluate : Method where
  params := []
  body :=
  [py| .ite (.cmp .gt (.self ._n_clusters) (.int 1))
    [py| .setSelf ._WGSS (.call .py_sum (.cons (.self ._CP) .nil));
      .assign .dim (.item (.attr (.self ._D) .a_shape) (.cons (.int 0) .nil));
      .assign .values (.item (.self ._D) (.cons (.call .np_triu_indices_k (.cons (.name .dim) (.cons (.int 1) .nil))) .nil));
      .setSelf ._SEP (.call .np_min (.cons (.name .values) .nil));
      .setSelf .criterion_value (.bin .div (.self ._WGSS) (.bin .mul (.self ._n_samples) (.self ._SEP))) ]
    [py| .setSelf .criterion_value (.float 0 1) ] ]

end XB

namespace DB

/-- `DB.__init__`, DB.py:30-42. -/
def init : Method where
  params := []
  body :=
  [py| .doCall .super__init__ .nil;
    .setSelf ._mu (.call .np_zeros (.cons (.seq (.cons (.int 0) .nil)) .nil));
    .setSelf ._R (.call .np_zeros (.cons (.seq (.cons (.int 0) (.cons (.int 0) .nil))) .nil));
    .setSelf ._D (.call .np_zeros (.cons (.seq (.cons (.int 0) (.cons (.int 0) .nil))) .nil));
    .setSelf ._S (.seq .nil) ]

/-- `DB._setup`, DB.py:45-54. -/
def _setup : Method where
  params := [.sample]
  body :=
  [py| .doCall .super_setup (.cons (.name .sample) .nil);
    .setSelf ._mu (.name .sample) ]

/-- `DB._param_inc`, DB.py:57-150. -/
def _param_inc : Method where
  params := [.sample, .label]
  body :=
  [py| .bindCall .i_label .get_internal_label (.cons (.name .label) .nil);
    .assign .n_samples_new (.bin .add (.self ._n_samples) (.int 1));
    .ite (.cmp .eq (.self ._n_samples) (.int 0))
    [py| .doCall .self_setup (.cons (.name .sample) .nil) ]
    [py| .setSelf ._mu (.bin .add (.bin .mul (.bin .sub (.int 1) (.bin .div (.int 1) (.name .n_samples_new))) (.self ._mu)) (.bin .mul (.bin .div (.int 1) (.name .n_samples_new)) (.name .sample))) ];
    .ite (.cmp .gt (.name .i_label) (.bin .sub (.self ._n_clusters) (.int 1)))
    [py| .assign .n_new (.int 1);
      .assign .v_new (.name .sample);
      .assign .CP_new (.float 0 1);
      .assign .G_new (.call .np_zeros (.cons (.self ._dim) .nil));
      .assign .S_new (.float 0 1);
      .ite (.cmp .eq (.self ._n_clusters) (.int 0))
      [py| .assign .D_new (.call .np_zeros (.cons (.seq (.cons (.int 1) (.cons (.int 1) .nil))) .nil)) ]
      [py| .assign .D_new (.call .np_zeros (.cons (.seq (.cons (.bin .add (.self ._n_clusters) (.int 1)) (.cons (.bin .add (.self ._n_clusters) (.int 1)) .nil))) .nil));
        .setItem .D_new (.cons (.slice (.int 0) (.self ._n_clusters)) (.cons (.slice (.int 0) (.self ._n_clusters)) .nil)) (.self ._D);
        .assign .d_column_new (.call .np_zeros (.cons (.bin .add (.self ._n_clusters) (.int 1)) .nil));
        .loop .jx (.call .py_range (.cons (.self ._n_clusters) .nil))
        [py| .setItem .d_column_new (.cons (.name .jx) .nil) (.call .np_sum (.cons (.bin .pow (.bin .sub (.name .v_new) (.item (.self ._v) (.cons (.name .jx) (.cons .colon .nil)))) (.int 2)) .nil)) ];
        .setItem .D_new (.cons (.name .i_label) (.cons .colon .nil)) (.name .d_column_new);
        .setItem .D_new (.cons .colon (.cons (.name .i_label) .nil)) (.name .d_column_new) ];
      .augSelf .add ._n_clusters (.int 1);
      .append ._n (.name .n_new);
      .append ._CP (.name .CP_new);
      .append ._S (.name .S_new);
      .setSelf ._v (.call .np_vstack (.cons (.seq (.cons (.self ._v) (.cons (.name .v_new) .nil))) .nil));
      .setSelf ._G (.call .np_vstack (.cons (.seq (.cons (.self ._G) (.cons (.name .G_new) .nil))) .nil));
      .setSelf ._D (.name .D_new) ]
    [py| .assign .n_new (.bin .add (.item (.self ._n) (.cons (.name .i_label) .nil)) (.int 1));
      .assign .v_new (.bin .add (.bin .mul (.bin .sub (.int 1) (.bin .div (.int 1) (.name .n_new))) (.item (.self ._v) (.cons (.name .i_label) (.cons .colon .nil)))) (.bin .mul (.bin .div (.int 1) (.name .n_new)) (.name .sample)));
      .assign .delta_v (.bin .sub (.item (.self ._v) (.cons (.name .i_label) (.cons .colon .nil))) (.name .v_new));
      .assign .diff_x_v (.bin .sub (.name .sample) (.name .v_new));
      .assign .CP_new (.bin .add (.bin .add (.bin .add (.item (.self ._CP) (.cons (.name .i_label) .nil)) (.call .np_inner (.cons (.name .diff_x_v) (.cons (.name .diff_x_v) .nil)))) (.bin .mul (.item (.self ._n) (.cons (.name .i_label) .nil)) (.call .np_inner (.cons (.name .delta_v) (.cons (.name .delta_v) .nil))))) (.bin .mul (.int 2) (.call .np_inner (.cons (.name .delta_v) (.cons (.item (.self ._G) (.cons (.name .i_label) (.cons .colon .nil))) .nil)))));
      .assign .G_new (.bin .add (.bin .add (.item (.self ._G) (.cons (.name .i_label) (.cons .colon .nil))) (.name .diff_x_v)) (.bin .mul (.item (.self ._n) (.cons (.name .i_label) .nil)) (.name .delta_v)));
      .assign .S_new (.bin .div (.name .CP_new) (.name .n_new));
      .assign .d_column_new (.call .np_zeros (.cons (.self ._n_clusters) .nil));
      .loop .jx (.call .py_range (.cons (.self ._n_clusters) .nil))
      [py| .ite (.cmp .eq (.name .jx) (.name .i_label))
        [py| .cont ]
        .nil;
        .setItem .d_column_new (.cons (.name .jx) .nil) (.call .np_sum (.cons (.bin .pow (.bin .sub (.name .v_new) (.item (.self ._v) (.cons (.name .jx) (.cons .colon .nil)))) (.int 2)) .nil)) ];
      .setSelfItem ._n (.cons (.name .i_label) .nil) (.name .n_new);
      .setSelfItem ._v (.cons (.name .i_label) (.cons .colon .nil)) (.name .v_new);
      .setSelfItem ._CP (.cons (.name .i_label) .nil) (.name .CP_new);
      .setSelfItem ._G (.cons (.name .i_label) (.cons .colon .nil)) (.name .G_new);
      .setSelfItem ._S (.cons (.name .i_label) .nil) (.name .S_new);
      .setSelfItem ._D (.cons (.name .i_label) (.cons .colon .nil)) (.name .d_column_new);
      .setSelfItem ._D (.cons .colon (.cons (.name .i_label) .nil)) (.name .d_column_new) ];
    .setSelf ._n_samples (.name .n_samples_new) ]

/-- `DB._param_batch`, DB.py:153-193. -/
def _param_batch : Method where
  params := [.data, .labels]
  body :=
  [py| .doCall .super_setup_batch (.cons (.name .data) .nil);
    .setSelf ._mu (.call .np_mean_axis (.cons (.name .data) (.cons (.int 0) .nil)));
    .assign .u (.call .np_unique (.cons (.name .labels) .nil));
    .setSelf ._n_clusters (.attr (.name .u) .a_size);
    .setSelf ._n (.comp (.int 0) .underscore (.call .py_range (.cons (.self ._n_clusters) .nil)));
    .setSelf ._v (.call .np_zeros (.cons (.seq (.cons (.self ._n_clusters) (.cons (.self ._dim) .nil))) .nil));
    .setSelf ._CP (.comp (.int 0) .underscore (.call .py_range (.cons (.self ._n_clusters) .nil)));
    .setSelf ._G (.call .np_zeros (.cons (.seq (.cons (.self ._n_clusters) (.cons (.self ._dim) .nil))) .nil));
    .setSelf ._D (.call .np_zeros (.cons (.seq (.cons (.self ._n_clusters) (.cons (.self ._n_clusters) .nil))) .nil));
    .setSelf ._S (.comp (.int 0) .underscore (.call .py_range (.cons (.self ._n_clusters) .nil)));
    .loop .ix (.call .py_range (.cons (.self ._n_clusters) .nil))
    [py| .assign .subset_indices (.compIf (.name .x) .x (.call .py_range (.cons (.call .py_len (.cons (.name .labels) .nil)) .nil)) (.cmp .eq (.item (.name .labels) (.cons (.name .x) .nil)) (.name .ix)));
      .assign .subset (.item (.name .data) (.cons (.name .subset_indices) (.cons .colon .nil)));
      .setSelfItem ._n (.cons (.name .ix) .nil) (.item (.attr (.name .subset) .a_shape) (.cons (.int 0) .nil));
      .setSelfItem ._v (.cons (.name .ix) (.cons .colon .nil)) (.call .np_mean_axis (.cons (.name .subset) (.cons (.int 0) .nil)));
      .assign .diff_x_v (.bin .sub (.name .subset) (.bin .mul (.item (.self ._v) (.cons (.name .ix) (.cons .colon .nil))) (.call .np_ones (.cons (.seq (.cons (.item (.self ._n) (.cons (.name .ix) .nil)) (.cons (.int 1) .nil))) .nil))));
      .setSelfItem ._CP (.cons (.name .ix) .nil) (.call .np_sum (.cons (.bin .pow (.name .diff_x_v) (.int 2)) .nil));
      .setSelfItem ._S (.cons (.name .ix) .nil) (.bin .div (.item (.self ._CP) (.cons (.name .ix) .nil)) (.item (.self ._n) (.cons (.name .ix) .nil))) ];
    .loop .ix (.call .py_range (.cons (.bin .sub (.self ._n_clusters) (.int 1)) .nil))
    [py| .loop .jx (.call .py_range (.cons (.bin .add (.name .ix) (.int 1)) (.cons (.self ._n_clusters) .nil)))
      [py| .setSelfItem ._D (.cons (.name .ix) (.cons (.name .jx) .nil)) (.call .np_sum (.cons (.bin .pow (.bin .sub (.item (.self ._v) (.cons (.name .ix) (.cons .colon .nil))) (.item (.self ._v) (.cons (.name .jx) (.cons .colon .nil)))) (.int 2)) .nil)) ] ];
    .setSelf ._D (.bin .add (.self ._D) (.call .np_transpose (.cons (.self ._D) .nil))) ]

/-- `DB._evaluate`, DB.py:196-213. -/
def _evaluate : Method where
  params := []
  body :=
  [py| .ite (.cmp .gt (.self ._n_clusters) (.int 1))
    [py| .setSelf ._R (.call .np_zeros (.cons (.seq (.cons (.self ._n_clusters) (.cons (.self ._n_clusters) .nil))) .nil));
      .loop .ix (.call .py_range (.cons (.bin .sub (.self ._n_clusters) (.int 1)) .nil))
      [py| .loop .jx (.call .py_range (.cons (.bin .add (.name .ix) (.int 1)) (.cons (.self ._n_clusters) .nil)))
        [py| .setSelfItem ._R (.cons (.name .jx) (.cons (.name .ix) .nil)) (.bin .div (.bin .add (.item (.self ._S) (.cons (.name .ix) .nil)) (.item (.self ._S) (.cons (.name .jx) .nil))) (.item (.self ._D) (.cons (.name .jx) (.cons (.name .ix) .nil)))) ] ];
      .setSelf ._R (.bin .add (.self ._R) (.call .np_transpose (.cons (.self ._R) .nil)));
      .setSelf .criterion_value (.bin .div (.call .np_sum (.cons (.call .np_max_axis (.cons (.self ._R) (.cons (.int 0) .nil))) .nil)) (.self ._n_clusters)) ]
    [py| .setSelf .criterion_value (.float 0 1) ] ]

end DB

namespace GD43

/-- `GD43.__init__`, GD43.py:34-46. -/
def init : Method where
  params := []
  body :=
  [py| .doCall .super__init__ .nil;
    .setSelf ._mu (.call .np_zeros (.cons (.seq (.cons (.int 0) .nil)) .nil));
    .setSelf ._D (.call .np_zeros (.cons (.seq (.cons (.int 0) (.cons (.int 0) .nil))) .nil));
    .setSelf ._inter (.float 0 1);
    .setSelf ._intra (.float 0 1) ]

/-- `GD43._setup`, GD43.py:49-58. -/
def _setup : Method where
  params := [.sample]
  body :=
  [py| .doCall .super_setup (.cons (.name .sample) .nil);
    .setSelf ._mu (.name .sample) ]

/-- `GD43._param_inc`, GD43.py:61-149. -/
def _param_inc : Method where
  params := [.sample, .label]
  body :=
  [py| .bindCall .i_label .get_internal_label (.cons (.name .label) .nil);
    .assign .n_samples_new (.bin .add (.self ._n_samples) (.int 1));
    .ite (.cmp .eq (.self ._n_samples) (.int 0))
    [py| .doCall .self_setup (.cons (.name .sample) .nil) ]
    [py| .setSelf ._mu (.bin .add (.bin .mul (.bin .sub (.int 1) (.bin .div (.int 1) (.name .n_samples_new))) (.self ._mu)) (.bin .mul (.bin .div (.int 1) (.name .n_samples_new)) (.name .sample))) ];
    .ite (.cmp .gt (.name .i_label) (.bin .sub (.self ._n_clusters) (.int 1)))
    [py| .assign .n_new (.int 1);
      .assign .v_new (.name .sample);
      .assign .CP_new (.float 0 1);
      .assign .G_new (.call .np_zeros (.cons (.self ._dim) .nil));
      .ite (.cmp .eq (.self ._n_clusters) (.int 0))
      [py| .assign .D_new (.call .np_zeros (.cons (.seq (.cons (.int 1) (.cons (.int 1) .nil))) .nil)) ]
      [py| .assign .D_new (.call .np_zeros (.cons (.seq (.cons (.bin .add (.self ._n_clusters) (.int 1)) (.cons (.bin .add (.self ._n_clusters) (.int 1)) .nil))) .nil));
        .setItem .D_new (.cons (.slice (.int 0) (.self ._n_clusters)) (.cons (.slice (.int 0) (.self ._n_clusters)) .nil)) (.self ._D);
        .assign .d_column_new (.call .np_zeros (.cons (.bin .add (.self ._n_clusters) (.int 1)) .nil));
        .loop .jx (.call .py_range (.cons (.self ._n_clusters) .nil))
        [py| .setItem .d_column_new (.cons (.name .jx) .nil) (.call .np_sqrt (.cons (.call .np_sum (.cons (.bin .pow (.bin .sub (.name .v_new) (.item (.self ._v) (.cons (.name .jx) (.cons .colon .nil)))) (.int 2)) .nil)) .nil)) ];
        .setItem .D_new (.cons (.name .i_label) (.cons .colon .nil)) (.name .d_column_new);
        .setItem .D_new (.cons .colon (.cons (.name .i_label) .nil)) (.name .d_column_new) ];
      .augSelf .add ._n_clusters (.int 1);
      .append ._n (.name .n_new);
      .append ._CP (.name .CP_new);
      .setSelf ._v (.call .np_vstack (.cons (.seq (.cons (.self ._v) (.cons (.name .v_new) .nil))) .nil));
      .setSelf ._G (.call .np_vstack (.cons (.seq (.cons (.self ._G) (.cons (.name .G_new) .nil))) .nil));
      .setSelf ._D (.name .D_new) ]
    [py| .assign .n_new (.bin .add (.item (.self ._n) (.cons (.name .i_label) .nil)) (.int 1));
      .assign .v_new (.bin .add (.bin .mul (.bin .sub (.int 1) (.bin .div (.int 1) (.name .n_new))) (.item (.self ._v) (.cons (.name .i_label) (.cons .colon .nil)))) (.bin .mul (.bin .div (.int 1) (.name .n_new)) (.name .sample)));
      .assign .delta_v (.bin .sub (.item (.self ._v) (.cons (.name .i_label) (.cons .colon .nil))) (.name .v_new));
      .assign .diff_x_v (.bin .sub (.name .sample) (.name .v_new));
      .assign .CP_new (.bin .add (.bin .add (.bin .add (.item (.self ._CP) (.cons (.name .i_label) .nil)) (.call .np_inner (.cons (.name .diff_x_v) (.cons (.name .diff_x_v) .nil)))) (.bin .mul (.item (.self ._n) (.cons (.name .i_label) .nil)) (.call .np_inner (.cons (.name .delta_v) (.cons (.name .delta_v) .nil))))) (.bin .mul (.int 2) (.call .np_inner (.cons (.name .delta_v) (.cons (.item (.self ._G) (.cons (.name .i_label) (.cons .colon .nil))) .nil)))));
      .assign .G_new (.bin .add (.bin .add (.item (.self ._G) (.cons (.name .i_label) (.cons .colon .nil))) (.name .diff_x_v)) (.bin .mul (.item (.self ._n) (.cons (.name .i_label) .nil)) (.name .delta_v)));
      .assign .d_column_new (.call .np_zeros (.cons (.self ._n_clusters) .nil));
      .loop .jx (.call .py_range (.cons (.self ._n_clusters) .nil))
      [py| .ite (.cmp .eq (.name .jx) (.name .i_label))
        [py| .cont ]
        .nil;
        .setItem .d_column_new (.cons (.name .jx) .nil) (.call .np_sqrt (.cons (.call .np_sum (.cons (.bin .pow (.bin .sub (.name .v_new) (.item (.self ._v) (.cons (.name .jx) (.cons .colon .nil)))) (.int 2)) .nil)) .nil)) ];
      .setSelfItem ._n (.cons (.name .i_label) .nil) (.name .n_new);
      .setSelfItem ._v (.cons (.name .i_label) (.cons .colon .nil)) (.name .v_new);
      .setSelfItem ._CP (.cons (.name .i_label) .nil) (.name .CP_new);
      .setSelfItem ._G (.cons (.name .i_label) (.cons .colon .nil)) (.name .G_new);
      .setSelfItem ._D (.cons (.name .i_label) (.cons .colon .nil)) (.name .d_column_new);
      .setSelfItem ._D (.cons .colon (.cons (.name .i_label) .nil)) (.name .d_column_new) ];
    .setSelf ._n_samples (.name .n_samples_new) ]

/-- `GD43._param_batch`, GD43.py:152-186. -/
def _param_batch : Method where
  params := [.data, .labels]
  body :=
  [py| .doCall .super_setup_batch (.cons (.name .data) .nil);
    .setSelf ._mu (.call .np_mean_axis (.cons (.name .data) (.cons (.int 0) .nil)));
    .assign .u (.call .np_unique (.cons (.name .labels) .nil));
    .setSelf ._n_clusters (.attr (.name .u) .a_size);
    .setSelf ._n (.comp (.int 0) .underscore (.call .py_range (.cons (.self ._n_clusters) .nil)));
    .setSelf ._v (.call .np_zeros (.cons (.seq (.cons (.self ._n_clusters) (.cons (.self ._dim) .nil))) .nil));
    .setSelf ._CP (.comp (.float 0 1) .underscore (.call .py_range (.cons (.self ._n_clusters) .nil)));
    .setSelf ._G (.call .np_zeros (.cons (.seq (.cons (.self ._n_clusters) (.cons (.self ._dim) .nil))) .nil));
    .setSelf ._D (.call .np_zeros (.cons (.seq (.cons (.self ._n_clusters) (.cons (.self ._n_clusters) .nil))) .nil));
    .loop .ix (.call .py_range (.cons (.self ._n_clusters) .nil))
    [py| .assign .subset_indices (.compIf (.name .x) .x (.call .py_range (.cons (.call .py_len (.cons (.name .labels) .nil)) .nil)) (.cmp .eq (.item (.name .labels) (.cons (.name .x) .nil)) (.name .ix)));
      .assign .subset (.item (.name .data) (.cons (.name .subset_indices) (.cons .colon .nil)));
      .setSelfItem ._n (.cons (.name .ix) .nil) (.item (.attr (.name .subset) .a_shape) (.cons (.int 0) .nil));
      .setSelfItem ._v (.cons (.name .ix) (.cons .colon .nil)) (.call .np_mean_axis (.cons (.name .subset) (.cons (.int 0) .nil)));
      .assign .diff_x_v (.bin .sub (.name .subset) (.bin .mul (.item (.self ._v) (.cons (.name .ix) (.cons .colon .nil))) (.call .np_ones (.cons (.seq (.cons (.item (.self ._n) (.cons (.name .ix) .nil)) (.cons (.int 1) .nil))) .nil))));
      .setSelfItem ._CP (.cons (.name .ix) .nil) (.call .np_sum (.cons (.bin .pow (.name .diff_x_v) (.int 2)) .nil)) ];
    .loop .ix (.call .py_range (.cons (.bin .sub (.self ._n_clusters) (.int 1)) .nil))
    [py| .loop .jx (.call .py_range (.cons (.bin .add (.name .ix) (.int 1)) (.cons (.self ._n_clusters) .nil)))
      [py| .setSelfItem ._D (.cons (.name .ix) (.cons (.name .jx) .nil)) (.call .np_sqrt (.cons (.call .np_sum (.cons (.bin .pow (.bin .sub (.item (.self ._v) (.cons (.name .ix) (.cons .colon .nil))) (.item (.self ._v) (.cons (.name .jx) (.cons .colon .nil)))) (.int 2)) .nil)) .nil)) ] ];
    .setSelf ._D (.bin .add (.self ._D) (.call .np_transpose (.cons (.self ._D) .nil))) ]

/-- `GD43._evaluate`, GD43.py:189-207. -/
def _evaluate : Method where
  params := []
  body :=
  [py| .ite (.cmp .gt (.self ._n_clusters) (.int 1))
    [py| .setSelf ._intra (.bin .mul (.int 2) (.call .np_max (.cons (.call .np_divide (.cons (.self ._CP) (.cons (.self ._n) .nil))) .nil)));
      .setSelf ._inter (.call .np_min (.cons (.item (.self ._D) (.cons (.call .np_triu (.cons (.call .np_ones (.cons (.seq (.cons (.self ._n_clusters) (.cons (.self ._n_clusters) .nil))) (.cons (.typ .bool_) .nil))) (.cons (.int 1) .nil))) .nil)) .nil));
      .setSelf .criterion_value (.bin .div (.self ._inter) (.self ._intra)) ]
    [py| .setSelf .criterion_value (.float 0 1) ] ]

end GD43

namespace GD53

/-- `GD53.__init__`, GD53.py:34-46. -/
def init : Method where
  params := []
  body :=
  [py| .doCall .super__init__ .nil;
    .setSelf ._mu (.call .np_zeros (.cons (.seq (.cons (.int 0) .nil)) .nil));
    .setSelf ._D (.call .np_zeros (.cons (.seq (.cons (.int 0) (.cons (.int 0) .nil))) .nil));
    .setSelf ._inter (.float 0 1);
    .setSelf ._intra (.float 0 1) ]

/-- `GD53._setup`, GD53.py:49-58. -/
def _setup : Method where
  params := [.sample]
  body :=
  [py| .doCall .super_setup (.cons (.name .sample) .nil);
    .setSelf ._mu (.name .sample) ]

/-- `GD53._param_inc`, GD53.py:61-149. -/
def _param_inc : Method where
  params := [.sample, .label]
  body :=
  [py| .bindCall .i_label .get_internal_label (.cons (.name .label) .nil);
    .assign .n_samples_new (.bin .add (.self ._n_samples) (.int 1));
    .ite (.cmp .eq (.self ._n_samples) (.int 0))
    [py| .doCall .self_setup (.cons (.name .sample) .nil) ]
    [py| .setSelf ._mu (.bin .add (.bin .mul (.bin .sub (.int 1) (.bin .div (.int 1) (.name .n_samples_new))) (.self ._mu)) (.bin .mul (.bin .div (.int 1) (.name .n_samples_new)) (.name .sample))) ];
    .ite (.cmp .gt (.name .i_label) (.bin .sub (.self ._n_clusters) (.int 1)))
    [py| .assign .n_new (.int 1);
      .assign .v_new (.name .sample);
      .assign .CP_new (.float 0 1);
      .assign .G_new (.call .np_zeros (.cons (.self ._dim) .nil));
      .ite (.cmp .eq (.self ._n_clusters) (.int 0))
      [py| .assign .D_new (.call .np_zeros (.cons (.seq (.cons (.int 1) (.cons (.int 1) .nil))) .nil)) ]
      [py| .assign .D_new (.call .np_zeros (.cons (.seq (.cons (.bin .add (.self ._n_clusters) (.int 1)) (.cons (.bin .add (.self ._n_clusters) (.int 1)) .nil))) .nil));
        .setItem .D_new (.cons (.slice (.int 0) (.self ._n_clusters)) (.cons (.slice (.int 0) (.self ._n_clusters)) .nil)) (.self ._D);
        .assign .d_column_new (.call .np_zeros (.cons (.bin .add (.self ._n_clusters) (.int 1)) .nil));
        .loop .jx (.call .py_range (.cons (.self ._n_clusters) .nil))
        [py| .setItem .d_column_new (.cons (.name .jx) .nil) (.bin .div (.bin .add (.name .CP_new) (.item (.self ._CP) (.cons (.name .jx) .nil))) (.bin .add (.name .n_new) (.item (.self ._n) (.cons (.name .jx) .nil)))) ];
        .setItem .D_new (.cons (.name .i_label) (.cons .colon .nil)) (.name .d_column_new);
        .setItem .D_new (.cons .colon (.cons (.name .i_label) .nil)) (.name .d_column_new) ];
      .augSelf .add ._n_clusters (.int 1);
      .append ._n (.name .n_new);
      .append ._CP (.name .CP_new);
      .setSelf ._v (.call .np_vstack (.cons (.seq (.cons (.self ._v) (.cons (.name .v_new) .nil))) .nil));
      .setSelf ._G (.call .np_vstack (.cons (.seq (.cons (.self ._G) (.cons (.name .G_new) .nil))) .nil));
      .setSelf ._D (.name .D_new) ]
    [py| .assign .n_new (.bin .add (.item (.self ._n) (.cons (.name .i_label) .nil)) (.int 1));
      .assign .v_new (.bin .add (.bin .mul (.bin .sub (.int 1) (.bin .div (.int 1) (.name .n_new))) (.item (.self ._v) (.cons (.name .i_label) (.cons .colon .nil)))) (.bin .mul (.bin .div (.int 1) (.name .n_new)) (.name .sample)));
      .assign .delta_v (.bin .sub (.item (.self ._v) (.cons (.name .i_label) (.cons .colon .nil))) (.name .v_new));
      .assign .diff_x_v (.bin .sub (.name .sample) (.name .v_new));
      .assign .CP_new (.bin .add (.bin .add (.bin .add (.item (.self ._CP) (.cons (.name .i_label) .nil)) (.call .np_inner (.cons (.name .diff_x_v) (.cons (.name .diff_x_v) .nil)))) (.bin .mul (.item (.self ._n) (.cons (.name .i_label) .nil)) (.call .np_inner (.cons (.name .delta_v) (.cons (.name .delta_v) .nil))))) (.bin .mul (.int 2) (.call .np_inner (.cons (.name .delta_v) (.cons (.item (.self ._G) (.cons (.name .i_label) (.cons .colon .nil))) .nil)))));
      .assign .G_new (.bin .add (.bin .add (.item (.self ._G) (.cons (.name .i_label) (.cons .colon .nil))) (.name .diff_x_v)) (.bin .mul (.item (.self ._n) (.cons (.name .i_label) .nil)) (.name .delta_v)));
      .assign .d_column_new (.call .np_zeros (.cons (.self ._n_clusters) .nil));
      .loop .jx (.call .py_range (.cons (.self ._n_clusters) .nil))
      [py| .ite (.cmp .eq (.name .jx) (.name .i_label))
        [py| .cont ]
        .nil;
        .setItem .d_column_new (.cons (.name .jx) .nil) (.bin .div (.bin .add (.name .CP_new) (.item (.self ._CP) (.cons (.name .jx) .nil))) (.bin .add (.name .n_new) (.item (.self ._n) (.cons (.name .jx) .nil)))) ];
      .setSelfItem ._n (.cons (.name .i_label) .nil) (.name .n_new);
      .setSelfItem ._v (.cons (.name .i_label) (.cons .colon .nil)) (.name .v_new);
      .setSelfItem ._CP (.cons (.name .i_label) .nil) (.name .CP_new);
      .setSelfItem ._G (.cons (.name .i_label) (.cons .colon .nil)) (.name .G_new);
      .setSelfItem ._D (.cons (.name .i_label) (.cons .colon .nil)) (.name .d_column_new);
      .setSelfItem ._D (.cons .colon (.cons (.name .i_label) .nil)) (.name .d_column_new) ];
    .setSelf ._n_samples (.name .n_samples_new) ]

/-- `GD53._param_batch`, GD53.py:152-187. -/
def _param_batch : Method where
  params := [.data, .labels]
  body :=
  [py| .doCall .super_setup_batch (.cons (.name .data) .nil);
    .setSelf ._mu (.call .np_mean_axis (.cons (.name .data) (.cons (.int 0) .nil)));
    .assign .u (.call .np_unique (.cons (.name .labels) .nil));
    .setSelf ._n_clusters (.attr (.name .u) .a_size);
    .setSelf ._n (.comp (.int 0) .underscore (.call .py_range (.cons (.self ._n_clusters) .nil)));
    .setSelf ._v (.call .np_zeros (.cons (.seq (.cons (.self ._n_clusters) (.cons (.self ._dim) .nil))) .nil));
    .setSelf ._CP (.comp (.float 0 1) .underscore (.call .py_range (.cons (.self ._n_clusters) .nil)));
    .setSelf ._G (.call .np_zeros (.cons (.seq (.cons (.self ._n_clusters) (.cons (.self ._dim) .nil))) .nil));
    .setSelf ._D (.call .np_zeros (.cons (.seq (.cons (.self ._n_clusters) (.cons (.self ._n_clusters) .nil))) .nil));
    .loop .ix (.call .py_range (.cons (.self ._n_clusters) .nil))
    [py| .assign .subset_indices (.compIf (.name .x) .x (.call .py_range (.cons (.call .py_len (.cons (.name .labels) .nil)) .nil)) (.cmp .eq (.item (.name .labels) (.cons (.name .x) .nil)) (.name .ix)));
      .assign .subset (.item (.name .data) (.cons (.name .subset_indices) (.cons .colon .nil)));
      .setSelfItem ._n (.cons (.name .ix) .nil) (.item (.attr (.name .subset) .a_shape) (.cons (.int 0) .nil));
      .setSelfItem ._v (.cons (.name .ix) (.cons .colon .nil)) (.call .np_mean_axis (.cons (.name .subset) (.cons (.int 0) .nil)));
      .assign .diff_x_v (.bin .sub (.name .subset) (.bin .mul (.item (.self ._v) (.cons (.name .ix) (.cons .colon .nil))) (.call .np_ones (.cons (.seq (.cons (.item (.self ._n) (.cons (.name .ix) .nil)) (.cons (.int 1) .nil))) .nil))));
      .setSelfItem ._CP (.cons (.name .ix) .nil) (.call .np_sum (.cons (.bin .pow (.name .diff_x_v) (.int 2)) .nil)) ];
    .loop .ix (.call .py_range (.cons (.bin .sub (.self ._n_clusters) (.int 1)) .nil))
    [py| .loop .jx (.call .py_range (.cons (.bin .add (.name .ix) (.int 1)) (.cons (.self ._n_clusters) .nil)))
      [py| .setSelfItem ._D (.cons (.name .ix) (.cons (.name .jx) .nil)) (.bin .div (.bin .add (.item (.self ._CP) (.cons (.name .ix) .nil)) (.item (.self ._CP) (.cons (.name .jx) .nil))) (.bin .add (.item (.self ._n) (.cons (.name .ix) .nil)) (.item (.self ._n) (.cons (.name .jx) .nil)))) ] ];
    .setSelf ._D (.bin .add (.self ._D) (.call .np_transpose (.cons (.self ._D) .nil))) ]

/-- `GD53._evaluate`, GD53.py:190-208. -/
def _evaluate : Method where
  params := []
  body :=
  [py| .ite (.cmp .gt (.self ._n_clusters) (.int 1))
    [py| .setSelf ._intra (.bin .mul (.int 2) (.call .np_max (.cons (.call .np_divide (.cons (.self ._CP) (.cons (.self ._n) .nil))) .nil)));
      .setSelf ._inter (.call .np_min (.cons (.item (.self ._D) (.cons (.call .np_triu (.cons (.call .np_ones (.cons (.seq (.cons (.self ._n_clusters) (.cons (.self ._n_clusters) .nil))) (.cons (.typ .bool_) .nil))) (.cons (.int 1) .nil))) .nil)) .nil));
      .setSelf .criterion_value (.bin .div (.self ._inter) (.self ._intra)) ]
    [py| .setSelf .criterion_value (.float 0 1) ] ]

end GD53

namespace PS

/-- `PS.__init__`, PS.py:28-40. -/
def init : Method where
  params := []
  body :=
  [py| .doCall .super__init__ .nil;
    .setSelf ._D (.call .np_zeros (.cons (.seq (.cons (.int 0) (.cons (.int 0) .nil))) .nil));
    .setSelf ._v_bar (.seq .nil);
    .setSelf ._beta_t (.float 0 1);
    .setSelf ._PS_i (.call .np_zeros (.cons (.int 0) .nil)) ]

/-- `PS._setup`, PS.py:43-54. -/
def _setup : Method where
  params := [.sample]
  body :=
  [py| .doCall .super_setup (.cons (.name .sample) .nil);
    .del ._G;
    .del ._CP ]

/-- `PS._param_inc`, PS.py:57-121. -/
def _param_inc : Method where
  params := [.sample, .label]
  body :=
  [py| .bindCall .i_label .get_internal_label (.cons (.name .label) .nil);
    .assign .n_samples_new (.bin .add (.self ._n_samples) (.int 1));
    .ite (.cmp .eq (.self ._n_samples) (.int 0))
    [py| .doCall .self_setup (.cons (.name .sample) .nil) ]
    .nil;
    .ite (.cmp .gt (.name .i_label) (.bin .sub (.self ._n_clusters) (.int 1)))
    [py| .assign .n_new (.int 1);
      .assign .v_new (.name .sample);
      .ite (.cmp .eq (.self ._n_clusters) (.int 0))
      [py| .assign .D_new (.call .np_zeros (.cons (.seq (.cons (.int 1) (.cons (.int 1) .nil))) .nil)) ]
      [py| .assign .D_new (.call .np_zeros (.cons (.seq (.cons (.bin .add (.self ._n_clusters) (.int 1)) (.cons (.bin .add (.self ._n_clusters) (.int 1)) .nil))) .nil));
        .setItem .D_new (.cons (.slice (.int 0) (.self ._n_clusters)) (.cons (.slice (.int 0) (.self ._n_clusters)) .nil)) (.self ._D);
        .assign .d_column_new (.call .np_zeros (.cons (.bin .add (.self ._n_clusters) (.int 1)) .nil));
        .loop .jx (.call .py_range (.cons (.self ._n_clusters) .nil))
        [py| .setItem .d_column_new (.cons (.name .jx) .nil) (.call .np_sum (.cons (.bin .pow (.bin .sub (.name .v_new) (.item (.self ._v) (.cons (.name .jx) (.cons .colon .nil)))) (.int 2)) .nil)) ];
        .setItem .D_new (.cons (.name .i_label) (.cons .colon .nil)) (.name .d_column_new);
        .setItem .D_new (.cons .colon (.cons (.name .i_label) .nil)) (.name .d_column_new) ];
      .augSelf .add ._n_clusters (.int 1);
      .append ._n (.name .n_new);
      .setSelf ._v (.call .np_vstack (.cons (.seq (.cons (.self ._v) (.cons (.name .v_new) .nil))) .nil));
      .setSelf ._D (.name .D_new) ]
    [py| .assign .n_new (.bin .add (.item (.self ._n) (.cons (.name .i_label) .nil)) (.int 1));
      .assign .v_new (.bin .add (.bin .mul (.bin .sub (.int 1) (.bin .div (.int 1) (.name .n_new))) (.item (.self ._v) (.cons (.name .i_label) (.cons .colon .nil)))) (.bin .mul (.bin .div (.int 1) (.name .n_new)) (.name .sample)));
      .assign .d_column_new (.call .np_zeros (.cons (.self ._n_clusters) .nil));
      .loop .jx (.call .py_range (.cons (.self ._n_clusters) .nil))
      [py| .ite (.cmp .eq (.name .jx) (.name .i_label))
        [py| .cont ]
        .nil;
        .setItem .d_column_new (.cons (.name .jx) .nil) (.call .np_sum (.cons (.bin .pow (.bin .sub (.name .v_new) (.item (.self ._v) (.cons (.name .jx) (.cons .colon .nil)))) (.int 2)) .nil)) ];
      .setSelfItem ._n (.cons (.name .i_label) .nil) (.name .n_new);
      .setSelfItem ._v (.cons (.name .i_label) (.cons .colon .nil)) (.name .v_new);
      .setSelfItem ._D (.cons (.name .i_label) (.cons .colon .nil)) (.name .d_column_new);
      .setSelfItem ._D (.cons .colon (.cons (.name .i_label) .nil)) (.name .d_column_new) ];
    .setSelf ._n_samples (.name .n_samples_new) ]

/-- `PS._param_batch`, PS.py:124-155. -/
def _param_batch : Method where
  params := [.data, .labels]
  body :=
  [py| .doCall .super_setup_batch (.cons (.name .data) .nil);
    .setSelf ._mu (.call .np_mean_axis (.cons (.name .data) (.cons (.int 0) .nil)));
    .assign .u (.call .np_unique (.cons (.name .labels) .nil));
    .setSelf ._n_clusters (.attr (.name .u) .a_size);
    .setSelf ._n (.comp (.int 0) .underscore (.call .py_range (.cons (.self ._n_clusters) .nil)));
    .setSelf ._v (.call .np_zeros (.cons (.seq (.cons (.self ._n_clusters) (.cons (.self ._dim) .nil))) .nil));
    .setSelf ._D (.call .np_zeros (.cons (.seq (.cons (.self ._n_clusters) (.cons (.self ._n_clusters) .nil))) .nil));
    .loop .ix (.call .py_range (.cons (.self ._n_clusters) .nil))
    [py| .assign .subset_indices (.compIf (.name .x) .x (.call .py_range (.cons (.call .py_len (.cons (.name .labels) .nil)) .nil)) (.cmp .eq (.item (.name .labels) (.cons (.name .x) .nil)) (.name .ix)));
      .assign .subset (.item (.name .data) (.cons (.name .subset_indices) (.cons .colon .nil)));
      .setSelfItem ._n (.cons (.name .ix) .nil) (.item (.attr (.name .subset) .a_shape) (.cons (.int 0) .nil));
      .setSelfItem ._v (.cons (.name .ix) (.cons .colon .nil)) (.call .np_mean_axis (.cons (.name .subset) (.cons (.int 0) .nil))) ];
    .loop .ix (.call .py_range (.cons (.bin .sub (.self ._n_clusters) (.int 1)) .nil))
    [py| .loop .jx (.call .py_range (.cons (.bin .add (.name .ix) (.int 1)) (.cons (.self ._n_clusters) .nil)))
      [py| .setSelfItem ._D (.cons (.name .ix) (.cons (.name .jx) .nil)) (.call .np_sum (.cons (.bin .pow (.bin .sub (.item (.self ._v) (.cons (.name .ix) (.cons .colon .nil))) (.item (.self ._v) (.cons (.name .jx) (.cons .colon .nil)))) (.int 2)) .nil)) ] ];
    .setSelf ._D (.bin .add (.self ._D) (.call .np_transpose (.cons (.self ._D) .nil))) ]

/-- `PS._evaluate`, PS.py:158-181. -/
def _evaluate : Method where
  params := []
  body :=
  [py| .ite (.cmp .gt (.self ._n_clusters) (.int 1))
    [py| .setSelf ._v_bar (.call .np_mean_axis (.cons (.self ._v) (.cons (.int 0) .nil)));
      .setSelf ._beta_t (.float 0 1);
      .setSelf ._PS_i (.call .np_zeros (.cons (.self ._n_clusters) .nil));
      .loop .ix (.call .py_range (.cons (.self ._n_clusters) .nil))
      [py| .assign .delta_v (.bin .sub (.item (.self ._v) (.cons (.name .ix) (.cons .colon .nil))) (.self ._v_bar));
        .setSelf ._beta_t (.bin .add (.self ._beta_t) (.call .np_inner (.cons (.name .delta_v) (.cons (.name .delta_v) .nil)))) ];
      .augSelf .div ._beta_t (.self ._n_clusters);
      .assign .n_max (.call .py_max (.cons (.self ._n) .nil));
      .loop .ix (.call .py_range (.cons (.self ._n_clusters) .nil))
      [py| .assign .d (.item (.self ._D) (.cons (.name .ix) (.cons .colon .nil)));
        .assign .d (.call .np_delete (.cons (.name .d) (.cons (.name .ix) .nil)));
        .setSelfItem ._PS_i (.cons (.name .ix) .nil) (.bin .sub (.bin .div (.item (.self ._n) (.cons (.name .ix) .nil)) (.name .n_max)) (.call .np_exp (.cons (.bin .div (.neg (.call .np_min (.cons (.name .d) .nil))) (.self ._beta_t)) .nil))) ];
      .setSelf .criterion_value (.call .np_sum (.cons (.self ._PS_i) .nil)) ]
    [py| .setSelf .criterion_value (.float 0 1) ] ]

end PS

namespace rCIP

/-- `rCIP.__init__`, rCIP.py:30-44. -/
def init : Method where
  params := []
  body :=
  [py| .doCall .super__init__ .nil;
    .setSelf ._D (.call .np_zeros (.cons (.seq (.cons (.int 0) (.cons (.int 0) .nil))) .nil));
    .setSelf ._sigma (.call .np_zeros (.cons (.seq (.cons (.int 0) (.cons (.int 0) (.cons (.int 0) .nil)))) .nil));
    .setSelf ._delta_term (.call .np_zeros (.cons (.seq (.cons (.int 0) (.cons (.int 0) .nil))) .nil));
    .setSelf ._constant (.float 0 1);
    .setSelf ._CP .none ]

/-- `rCIP._setup`, rCIP.py:47-59. -/
def _setup : Method where
  params := [.sample]
  body :=
  [py| .doCall .super_setup (.cons (.name .sample) .nil);
    .setSelf ._sigma (.call .np_zeros (.cons (.seq (.cons (.self ._dim) (.cons (.self ._dim) (.cons (.int 0) .nil)))) .nil));
    .assign .epsilon (.float 12 1);
    .assign .delta (.bin .pow (.float 10 1) (.bin .div (.neg (.name .epsilon)) (.self ._dim)));
    .setSelf ._delta_term (.bin .mul (.call .np_eye (.cons (.self ._dim) .nil)) (.name .delta)) ]

/-- `rCIP._param_inc`, rCIP.py:62-152. -/
def _param_inc : Method where
  params := [.sample, .label]
  body :=
  [py| .bindCall .i_label .get_internal_label (.cons (.name .label) .nil);
    .assign .n_samples_new (.bin .add (.self ._n_samples) (.int 1));
    .ite (.cmp .eq (.self ._n_samples) (.int 0))
    [py| .doCall .self_setup (.cons (.name .sample) .nil) ]
    .nil;
    .setSelf ._constant (.bin .div (.int 1) (.call .np_sqrt (.cons (.bin .pow (.bin .mul (.int 2) .pi) (.self ._dim)) .nil)));
    .ite (.cmp .gt (.name .i_label) (.bin .sub (.self ._n_clusters) (.int 1)))
    [py| .assign .n_new (.int 1);
      .assign .v_new (.name .sample);
      .assign .sigma_new (.self ._delta_term);
      .ite (.cmp .eq (.self ._n_clusters) (.int 0))
      [py| .assign .D_new (.call .np_zeros (.cons (.seq (.cons (.int 1) (.cons (.int 1) .nil))) .nil)) ]
      [py| .assign .D_new (.call .np_zeros (.cons (.seq (.cons (.bin .add (.self ._n_clusters) (.int 1)) (.cons (.bin .add (.self ._n_clusters) (.int 1)) .nil))) .nil));
        .setItem .D_new (.cons (.slice (.int 0) (.self ._n_clusters)) (.cons (.slice (.int 0) (.self ._n_clusters)) .nil)) (.self ._D);
        .assign .d_column_new (.call .np_zeros (.cons (.bin .add (.self ._n_clusters) (.int 1)) .nil));
        .loop .jx (.call .py_range (.cons (.self ._n_clusters) .nil))
        [py| .assign .diff_m (.bin .sub (.name .v_new) (.item (.self ._v) (.cons (.name .jx) (.cons .colon .nil))));
          .assign .sigma_q (.bin .add (.name .sigma_new) (.item (.self ._sigma) (.cons .colon (.cons .colon (.cons (.name .jx) .nil)))));
          .setItem .d_column_new (.cons (.name .jx) .nil) (.bin .mul (.bin .mul (.self ._constant) (.bin .div (.int 1) (.call .np_sqrt (.cons (.call .np_linalg_det (.cons (.name .sigma_q) .nil)) .nil)))) (.call .np_exp (.cons (.bin .matmul (.bin .matmul (.bin .mul (.neg (.float 1 2)) (.name .diff_m)) (.call .np_linalg_inv (.cons (.name .sigma_q) .nil))) (.name .diff_m)) .nil))) ];
        .setItem .D_new (.cons (.name .i_label) (.cons .colon .nil)) (.name .d_column_new);
        .setItem .D_new (.cons .colon (.cons (.name .i_label) .nil)) (.name .d_column_new) ];
      .augSelf .add ._n_clusters (.int 1);
      .append ._n (.name .n_new);
      .setSelf ._v (.call .np_vstack (.cons (.seq (.cons (.self ._v) (.cons (.name .v_new) .nil))) .nil));
      .setSelf ._D (.name .D_new);
      .setSelf ._sigma (.call .np_dstack (.cons (.seq (.cons (.self ._sigma) (.cons (.name .sigma_new) .nil))) .nil)) ]
    [py| .assign .n_new (.bin .add (.item (.self ._n) (.cons (.name .i_label) .nil)) (.int 1));
      .assign .v_new (.bin .add (.bin .mul (.bin .sub (.int 1) (.bin .div (.int 1) (.name .n_new))) (.item (.self ._v) (.cons (.name .i_label) (.cons .colon .nil)))) (.bin .mul (.bin .div (.int 1) (.name .n_new)) (.name .sample)));
      .assign .diff_x_v (.bin .sub (.name .sample) (.item (.self ._v) (.cons (.name .i_label) (.cons .colon .nil))));
      .assign .sigma_new (.bin .add (.bin .add (.bin .mul (.bin .div (.bin .sub (.name .n_new) (.int 2)) (.bin .sub (.name .n_new) (.int 1))) (.bin .sub (.item (.self ._sigma) (.cons .colon (.cons .colon (.cons (.name .i_label) .nil)))) (.self ._delta_term))) (.bin .mul (.bin .div (.int 1) (.name .n_new)) (.call .np_outer (.cons (.name .diff_x_v) (.cons (.name .diff_x_v) .nil))))) (.self ._delta_term));
      .assign .d_column_new (.call .np_zeros (.cons (.self ._n_clusters) .nil));
      .loop .jx (.call .py_range (.cons (.self ._n_clusters) .nil))
      [py| .ite (.cmp .eq (.name .jx) (.name .i_label))
        [py| .cont ]
        .nil;
        .assign .diff_m (.bin .sub (.name .v_new) (.item (.self ._v) (.cons (.name .jx) (.cons .colon .nil))));
        .assign .sigma_q (.bin .add (.name .sigma_new) (.item (.self ._sigma) (.cons .colon (.cons .colon (.cons (.name .jx) .nil)))));
        .setItem .d_column_new (.cons (.name .jx) .nil) (.bin .mul (.bin .mul (.self ._constant) (.bin .div (.int 1) (.call .np_sqrt (.cons (.call .np_linalg_det (.cons (.name .sigma_q) .nil)) .nil)))) (.call .np_exp (.cons (.bin .matmul (.bin .matmul (.bin .mul (.neg (.float 1 2)) (.name .diff_m)) (.call .np_linalg_inv (.cons (.name .sigma_q) .nil))) (.name .diff_m)) .nil))) ];
      .setSelfItem ._n (.cons (.name .i_label) .nil) (.name .n_new);
      .setSelfItem ._v (.cons (.name .i_label) (.cons .colon .nil)) (.name .v_new);
      .setSelfItem ._sigma (.cons .colon (.cons .colon (.cons (.name .i_label) .nil))) (.name .sigma_new);
      .setSelfItem ._D (.cons (.name .i_label) (.cons .colon .nil)) (.name .d_column_new);
      .setSelfItem ._D (.cons .colon (.cons (.name .i_label) .nil)) (.name .d_column_new) ];
    .setSelf ._n_samples (.name .n_samples_new) ]

/-- `rCIP._param_batch`, rCIP.py:155-205. -/
def _param_batch : Method where
  params := [.data, .labels]
  body :=
  [py| .doCall .super_setup_batch (.cons (.name .data) .nil);
    .assign .epsilon (.float 12 1);
    .assign .delta (.bin .pow (.float 10 1) (.bin .div (.neg (.name .epsilon)) (.self ._dim)));
    .setSelf ._delta_term (.bin .mul (.call .np_eye (.cons (.self ._dim) .nil)) (.name .delta));
    .setSelf ._constant (.bin .div (.int 1) (.call .np_sqrt (.cons (.bin .pow (.bin .mul (.int 2) .pi) (.self ._dim)) .nil)));
    .assign .u (.call .np_unique (.cons (.name .labels) .nil));
    .setSelf ._n_clusters (.attr (.name .u) .a_size);
    .setSelf ._n (.comp (.int 0) .underscore (.call .py_range (.cons (.self ._n_clusters) .nil)));
    .setSelf ._v (.call .np_zeros (.cons (.seq (.cons (.self ._n_clusters) (.cons (.self ._dim) .nil))) .nil));
    .setSelf ._sigma (.call .np_zeros (.cons (.seq (.cons (.self ._dim) (.cons (.self ._dim) (.cons (.self ._n_clusters) .nil)))) .nil));
    .setSelf ._D (.call .np_zeros (.cons (.seq (.cons (.self ._n_clusters) (.cons (.self ._n_clusters) .nil))) .nil));
    .loop .ix (.call .py_range (.cons (.self ._n_clusters) .nil))
    [py| .assign .subset_indices (.compIf (.name .x) .x (.call .py_range (.cons (.call .py_len (.cons (.name .labels) .nil)) .nil)) (.cmp .eq (.item (.name .labels) (.cons (.name .x) .nil)) (.name .ix)));
      .assign .subset (.item (.name .data) (.cons (.name .subset_indices) (.cons .colon .nil)));
      .setSelfItem ._n (.cons (.name .ix) .nil) (.item (.attr (.name .subset) .a_shape) (.cons (.int 0) .nil));
      .setSelfItem ._v (.cons (.name .ix) (.cons .colon .nil)) (.call .np_mean_axis (.cons (.name .subset) (.cons (.int 0) .nil)));
      .ite (.cmp .gt (.item (.self ._n) (.cons (.name .ix) .nil)) (.int 1))
      [py| .setSelfItem ._sigma (.cons .colon (.cons .colon (.cons (.name .ix) .nil))) (.bin .add (.bin .mul (.bin .div (.int 1) (.bin .sub (.item (.self ._n) (.cons (.name .ix) .nil)) (.int 1))) (.bin .sub (.bin .matmul (.call .np_transpose (.cons (.name .subset) .nil)) (.name .subset)) (.bin .mul (.item (.self ._n) (.cons (.name .ix) .nil)) (.call .np_outer (.cons (.item (.self ._v) (.cons (.name .ix) (.cons .colon .nil))) (.cons (.item (.self ._v) (.cons (.name .ix) (.cons .colon .nil))) .nil)))))) (.self ._delta_term)) ]
      [py| .setSelfItem ._sigma (.cons .colon (.cons .colon (.cons (.name .ix) .nil))) (.self ._delta_term) ] ];
    .loop .ix (.call .py_range (.cons (.bin .sub (.self ._n_clusters) (.int 1)) .nil))
    [py| .loop .jx (.call .py_range (.cons (.bin .add (.name .ix) (.int 1)) (.cons (.self ._n_clusters) .nil)))
      [py| .assign .diff_m (.bin .sub (.item (.self ._v) (.cons (.name .ix) (.cons .colon .nil))) (.item (.self ._v) (.cons (.name .jx) (.cons .colon .nil))));
        .assign .sigma_q (.bin .add (.item (.self ._sigma) (.cons .colon (.cons .colon (.cons (.name .ix) .nil)))) (.item (.self ._sigma) (.cons .colon (.cons .colon (.cons (.name .jx) .nil)))));
        .setSelfItem ._D (.cons (.name .ix) (.cons (.name .jx) .nil)) (.bin .mul (.bin .mul (.self ._constant) (.bin .div (.int 1) (.call .np_sqrt (.cons (.call .np_linalg_det (.cons (.name .sigma_q) .nil)) .nil)))) (.call .np_exp (.cons (.bin .matmul (.bin .matmul (.bin .mul (.neg (.float 1 2)) (.name .diff_m)) (.call .np_linalg_inv (.cons (.name .sigma_q) .nil))) (.name .diff_m)) .nil))) ] ];
    .setSelf ._D (.bin .add (.self ._D) (.call .np_transpose (.cons (.self ._D) .nil))) ]

/-- `rCIP._evaluate`, rCIP.py:208-219. -/
def _evaluate : Method where
  params := []
  body :=
  [py| .assign .dim (.item (.attr (.self ._D) .a_shape) (.cons (.int 0) .nil));
    .ite (.cmp .gt (.name .dim) (.int 1))
    [py| .assign .values (.item (.self ._D) (.cons (.call .np_triu_indices_k (.cons (.name .dim) (.cons (.int 1) .nil))) .nil));
      .setSelf .criterion_value (.call .np_sum (.cons (.name .values) .nil)) ]
    [py| .setSelf .criterion_value (.float 0 1) ] ]

end rCIP

namespace cSIL

/-- `cSIL.__init__`, cSIL.py:30-40. -/
def init : Method where
  params := []
  body :=
  [py| .doCall .super__init__ .nil;
    .setSelf ._S (.call .np_empty (.cons (.seq (.cons (.int 0) (.cons (.int 0) .nil))) .nil));
    .setSelf ._sil_coefs (.seq .nil) ]

/-- `cSIL._setup`, cSIL.py:43-49. -/
def _setup : Method where
  params := [.sample]
  body :=
  [py| .doCall .super_setup (.cons (.name .sample) .nil) ]

/-- `cSIL._param_inc`, cSIL.py:52-177. -/
def _param_inc : Method where
  params := [.sample, .label]
  body :=
  [py| .bindCall .i_label .get_internal_label (.cons (.name .label) .nil);
    .assign .n_samples_new (.bin .add (.self ._n_samples) (.int 1));
    .ite (.cmp .eq (.self ._n_samples) (.int 0))
    [py| .doCall .self_setup (.cons (.name .sample) .nil) ]
    .nil;
    .ite (.cmp .gt (.name .i_label) (.bin .sub (.self ._n_clusters) (.int 1)))
    [py| .assign .n_new (.int 1);
      .assign .v_new (.name .sample);
      .assign .CP_new (.call .np_inner (.cons (.name .sample) (.cons (.name .sample) .nil)));
      .assign .G_new (.name .sample);
      .ite (.cmp .eq (.self ._n_clusters) (.int 0))
      [py| .assign .S_new (.call .np_zeros (.cons (.seq (.cons (.int 1) (.cons (.int 1) .nil))) .nil)) ]
      [py| .assign .S_new (.call .np_zeros (.cons (.seq (.cons (.bin .add (.self ._n_clusters) (.int 1)) (.cons (.bin .add (.self ._n_clusters) (.int 1)) .nil))) .nil));
        .setItem .S_new (.cons (.slice (.int 0) (.self ._n_clusters)) (.cons (.slice (.int 0) (.self ._n_clusters)) .nil)) (.self ._S);
        .assign .S_row_new (.call .np_zeros (.cons (.bin .add (.self ._n_clusters) (.int 1)) .nil));
        .assign .S_col_new (.call .np_zeros (.cons (.bin .add (.self ._n_clusters) (.int 1)) .nil));
        .loop .cl (.call .py_range (.cons (.self ._n_clusters) .nil))
        [py| .assign .C (.bin .sub (.bin .add (.name .CP_new) (.call .np_inner (.cons (.item (.self ._v) (.cons (.name .cl) (.cons .colon .nil))) (.cons (.item (.self ._v) (.cons (.name .cl) (.cons .colon .nil))) .nil)))) (.call .np_inner (.cons (.name .G_new) (.cons (.item (.self ._v) (.cons (.name .cl) (.cons .colon .nil))) .nil))));
          .setItem .S_col_new (.cons (.name .cl) .nil) (.name .C);
          .assign .C (.bin .sub (.bin .add (.item (.self ._CP) (.cons (.name .cl) .nil)) (.bin .mul (.item (.self ._n) (.cons (.name .cl) .nil)) (.call .np_inner (.cons (.name .v_new) (.cons (.name .v_new) .nil))))) (.bin .mul (.int 2) (.call .np_inner (.cons (.item (.self ._G) (.cons (.name .cl) (.cons .colon .nil))) (.cons (.name .v_new) .nil)))));
          .setItem .S_row_new (.cons (.name .cl) .nil) (.bin .div (.name .C) (.item (.self ._n) (.cons (.name .cl) .nil))) ];
        .setItem .S_col_new (.cons (.name .i_label) .nil) (.int 0);
        .setItem .S_row_new (.cons (.name .i_label) .nil) (.item (.name .S_col_new) (.cons (.name .i_label) .nil));
        .setItem .S_new (.cons (.name .i_label) (.cons .colon .nil)) (.name .S_col_new);
        .setItem .S_new (.cons .colon (.cons (.name .i_label) .nil)) (.name .S_row_new) ];
      .augSelf .add ._n_clusters (.int 1);
      .append ._n (.name .n_new);
      .append ._CP (.name .CP_new);
      .setSelf ._v (.call .np_vstack (.cons (.seq (.cons (.self ._v) (.cons (.name .v_new) .nil))) .nil));
      .setSelf ._G (.call .np_vstack (.cons (.seq (.cons (.self ._G) (.cons (.name .G_new) .nil))) .nil));
      .setSelf ._S (.name .S_new) ]
    [py| .assign .n_new (.bin .add (.item (.self ._n) (.cons (.name .i_label) .nil)) (.int 1));
      .assign .v_new (.bin .add (.bin .mul (.bin .sub (.int 1) (.bin .div (.int 1) (.name .n_new))) (.item (.self ._v) (.cons (.name .i_label) (.cons .colon .nil)))) (.bin .mul (.bin .div (.int 1) (.name .n_new)) (.name .sample)));
      .assign .CP_new (.bin .add (.item (.self ._CP) (.cons (.name .i_label) .nil)) (.call .np_inner (.cons (.name .sample) (.cons (.name .sample) .nil))));
      .assign .G_new (.bin .add (.item (.self ._G) (.cons (.name .i_label) (.cons .colon .nil))) (.name .sample));
      .assign .S_row_new (.call .np_zeros (.cons (.self ._n_clusters) .nil));
      .assign .S_col_new (.call .np_zeros (.cons (.self ._n_clusters) .nil));
      .loop .cl (.call .py_range (.cons (.self ._n_clusters) .nil))
      [py| .ite (.cmp .eq (.name .cl) (.name .i_label))
        [py| .cont ]
        .nil;
        .assign .diff_x_v (.bin .sub (.name .sample) (.item (.self ._v) (.cons (.name .cl) (.cons .colon .nil))));
        .assign .C (.bin .sub (.bin .add (.bin .add (.item (.self ._CP) (.cons (.name .i_label) .nil)) (.call .np_inner (.cons (.name .diff_x_v) (.cons (.name .diff_x_v) .nil)))) (.bin .mul (.item (.self ._n) (.cons (.name .i_label) .nil)) (.call .np_inner (.cons (.item (.self ._v) (.cons (.name .cl) (.cons .colon .nil))) (.cons (.item (.self ._v) (.cons (.name .cl) (.cons .colon .nil))) .nil))))) (.bin .mul (.int 2) (.call .np_inner (.cons (.name .G_new) (.cons (.item (.self ._v) (.cons (.name .cl) (.cons .colon .nil))) .nil)))));
        .setItem .S_col_new (.cons (.name .cl) .nil) (.bin .div (.name .C) (.name .n_new));
        .assign .C (.bin .sub (.bin .add (.item (.self ._CP) (.cons (.name .cl) .nil)) (.bin .mul (.item (.self ._n) (.cons (.name .cl) .nil)) (.call .np_inner (.cons (.name .v_new) (.cons (.name .v_new) .nil))))) (.bin .mul (.int 2) (.call .np_inner (.cons (.item (.self ._G) (.cons (.name .cl) (.cons .colon .nil))) (.cons (.name .v_new) .nil)))));
        .setItem .S_row_new (.cons (.name .cl) .nil) (.bin .div (.name .C) (.item (.self ._n) (.cons (.name .cl) .nil))) ];
      .assign .diff_x_v (.bin .sub (.name .sample) (.name .v_new));
      .assign .C (.bin .sub (.bin .add (.bin .add (.item (.self ._CP) (.cons (.name .i_label) .nil)) (.call .np_inner (.cons (.name .diff_x_v) (.cons (.name .diff_x_v) .nil)))) (.bin .mul (.item (.self ._n) (.cons (.name .i_label) .nil)) (.call .np_inner (.cons (.name .v_new) (.cons (.name .v_new) .nil))))) (.bin .mul (.int 2) (.call .np_inner (.cons (.item (.self ._G) (.cons (.name .i_label) (.cons .colon .nil))) (.cons (.name .v_new) .nil)))));
      .setItem .S_col_new (.cons (.name .i_label) .nil) (.bin .div (.name .C) (.name .n_new));
      .setItem .S_row_new (.cons (.name .i_label) .nil) (.item (.name .S_col_new) (.cons (.name .i_label) .nil));
      .setSelfItem ._n (.cons (.name .i_label) .nil) (.name .n_new);
      .setSelfItem ._v (.cons (.name .i_label) (.cons .colon .nil)) (.name .v_new);
      .setSelfItem ._CP (.cons (.name .i_label) .nil) (.name .CP_new);
      .setSelfItem ._G (.cons (.name .i_label) (.cons .colon .nil)) (.name .G_new);
      .setSelfItem ._S (.cons (.name .i_label) (.cons .colon .nil)) (.name .S_col_new);
      .setSelfItem ._S (.cons .colon (.cons (.name .i_label) .nil)) (.name .S_row_new) ];
    .setSelf ._n_samples (.name .n_samples_new) ]

/-- `cSIL._param_batch`, cSIL.py:180-215. -/
def _param_batch : Method where
  params := [.data, .labels]
  body :=
  [py| .doCall .super_setup_batch (.cons (.name .data) .nil);
    .assign .u (.call .np_unique (.cons (.name .labels) .nil));
    .setSelf ._n_clusters (.attr (.name .u) .a_size);
    .setSelf ._n (.call .np_zeros_dtype (.cons (.self ._n_clusters) (.cons (.typ .int_) .nil)));
    .setSelf ._v (.call .np_zeros (.cons (.seq (.cons (.self ._n_clusters) (.cons (.self ._dim) .nil))) .nil));
    .setSelf ._CP (.call .np_zeros (.cons (.self ._n_clusters) .nil));
    .setSelf ._S (.call .np_zeros (.cons (.seq (.cons (.self ._n_clusters) (.cons (.self ._n_clusters) .nil))) .nil));
    .assign .D (.call .np_zeros (.cons (.seq (.cons (.self ._n_samples) (.cons (.self ._n_samples) .nil))) .nil));
    .loop .ix (.call .py_range (.cons (.self ._n_clusters) .nil))
    [py| .assign .subset_indices (.compIf (.name .x) .x (.call .py_range (.cons (.call .py_len (.cons (.name .labels) .nil)) .nil)) (.cmp .eq (.item (.name .labels) (.cons (.name .x) .nil)) (.name .ix)));
      .assign .subset (.item (.name .data) (.cons (.name .subset_indices) (.cons .colon .nil)));
      .setSelfItem ._n (.cons (.name .ix) .nil) (.item (.attr (.name .subset) .a_shape) (.cons (.int 0) .nil));
      .setSelfItem ._v (.cons (.name .ix) (.cons .colon .nil)) (.call .np_mean_axis (.cons (.name .subset) (.cons (.int 0) .nil)));
      .assign .diff_x_v (.bin .sub (.name .subset) (.bin .mul (.item (.self ._v) (.cons (.name .ix) (.cons .colon .nil))) (.call .np_ones (.cons (.seq (.cons (.item (.self ._n) (.cons (.name .ix) .nil)) (.cons (.int 1) .nil))) .nil))));
      .setSelfItem ._CP (.cons (.name .ix) .nil) (.call .np_sum (.cons (.bin .pow (.name .diff_x_v) (.int 2)) .nil));
      .assign .d_temp (.bin .pow (.bin .sub (.name .data) (.bin .mul (.item (.self ._v) (.cons (.name .ix) (.cons .colon .nil))) (.call .np_ones (.cons (.seq (.cons (.self ._n_samples) (.cons (.int 1) .nil))) .nil)))) (.int 2));
      .setItem .D (.cons (.name .ix) (.cons .colon .nil)) (.call .np_transpose (.cons (.call .np_sum_axis (.cons (.name .d_temp) (.cons (.int 1) .nil))) .nil)) ];
    .loop .ix (.call .py_range (.cons (.self ._n_clusters) .nil))
    [py| .loop .jx (.call .py_range (.cons (.self ._n_clusters) .nil))
      [py| .assign .subset_ind (.compIf (.name .x) .x (.call .py_range (.cons (.call .py_len (.cons (.name .labels) .nil)) .nil)) (.cmp .eq (.item (.name .labels) (.cons (.name .x) .nil)) (.name .jx)));
        .setSelfItem ._S (.cons (.name .jx) (.cons (.name .ix) .nil)) (.bin .div (.call .py_sum (.cons (.item (.name .D) (.cons (.name .ix) (.cons (.name .subset_ind) .nil))) .nil)) (.item (.self ._n) (.cons (.name .jx) .nil))) ] ] ]

/-- `cSIL._evaluate`, cSIL.py:218-237. -/
def _evaluate : Method where
  params := []
  body :=
  [py| .setSelf ._sil_coefs (.call .np_zeros (.cons (.self ._n_clusters) .nil));
    .ite (.and (.cmp .gt (.self ._n_clusters) (.int 1)) (.call .m_any (.cons (.self ._S) .nil)))
    [py| .loop .ix (.call .py_range (.cons (.self ._n_clusters) .nil))
      [py| .assign .a (.item (.self ._S) (.cons (.name .ix) (.cons (.name .ix) .nil)));
        .assign .local_S (.call .np_delete (.cons (.item (.self ._S) (.cons .colon (.cons (.name .ix) .nil))) (.cons (.name .ix) .nil)));
        .assign .b (.call .np_min (.cons (.name .local_S) .nil));
        .setSelfItem ._sil_coefs (.cons (.name .ix) .nil) (.bin .div (.bin .sub (.name .b) (.name .a)) (.call .np_maximum (.cons (.name .a) (.cons (.name .b) .nil)))) ];
      .setSelf .criterion_value (.bin .div (.call .np_sum (.cons (.self ._sil_coefs) .nil)) (.self ._n_clusters)) ]
    [py| .setSelf .criterion_value (.float 0 1) ] ]

end cSIL

end Verif.Source
