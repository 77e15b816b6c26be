import Verif.Old.Lang

/-!
# The text of the older interface

Written by `tools/embed_v0.py` from src/cvi/compat/v0.py.
-/

namespace Verif.Old

namespace Cluster

/-- `Cluster.__init__`, v0.py:19-38. -/
def init : Func where
  params := [(.radial, some (.bool true)), (.box, some (.bool false))]
  body :=
  [old| .assign (.self .radial) (.name .radial);
    .assign (.self .box) (.name .box);
    .assign (.self .len) (.int 0);
    .assign (.self .center) (.int 0);
    .assign (.self .bounding_box) (.seq .nil);
    .assign (.self .points) (.seq .nil);
    .assign (.self .indicies) (.seq .nil);
    .assign (.self .dim) (.int 0) ]

/-- `Cluster.add_point`, v0.py:40-70. -/
def add_point : Func where
  params := [(.x, Option.none), (.i, some .none)]
  body :=
  [old| .ite (.not (.self .points))
    [old| .assign (.self .dim) (.call .py_len (.cons (.name .x) .nil) .nil) ]
    .nil;
    .assert (.cmp .eq (.self .dim) (.call .py_len (.cons (.name .x) .nil) .nil));
    .ite (.self .radial)
    [old| .assign (.var .new_center) (.bin .div (.bin .add (.bin .mul (.self .center) (.self .len)) (.name .x)) (.bin .add (.self .len) (.int 1)));
      .assign (.self .center) (.name .new_center) ]
    .nil;
    .ite (.self .box)
    [old| .assert (.cmp .le (.call .np_max (.cons (.name .x) .nil) .nil) (.int 1));
      .assert (.cmp .ge (.call .np_min (.cons (.name .x) .nil) .nil) (.int 0));
      .assign (.var .cc_x) (.call .np_append (.cons (.name .x) (.cons (.bin .sub (.int 1) (.name .x)) .nil)) .nil);
      .ite (.self .bounding_box)
      [old| .assign (.self .bounding_box) (.call .np_minimum (.cons (.self .bounding_box) (.cons (.name .cc_x) .nil)) .nil) ]
      [old| .assign (.self .bounding_box) (.name .cc_x) ] ]
    .nil;
    .append .points (.name .x);
    .ite (.cmp .isNot (.name .i) .none)
    [old| .append .indicies (.name .i) ]
    .nil;
    .aug .add (.self .len) (.int 1) ]

/-- `Cluster.min_distance`, v0.py:72-88. -/
def min_distance : Func where
  params := [(.x, Option.none), (.norm_ord, some (.int 2))]
  body :=
  [old| .assign (.var .min_d) .inf;
    .loop .y (.self .points)
    [old| .assign (.var .d_y) (.call .np_linalg_norm (.cons (.bin .sub (.name .x) (.name .y)) (.cons (.name .norm_ord) .nil)) .nil);
      .assign (.var .min_d) (.call .np_minimum (.cons (.name .min_d) (.cons (.name .d_y) .nil)) .nil) ];
    .ret (.name .min_d) ]

/-- `Cluster.avg_distance`, v0.py:90-106. -/
def avg_distance : Func where
  params := [(.x, Option.none), (.norm_ord, some (.int 2))]
  body :=
  [old| .assign (.var .avg_d) (.int 0);
    .loop .y (.self .points)
    [old| .aug .add (.var .avg_d) (.call .np_linalg_norm (.cons (.bin .sub (.name .x) (.name .y)) (.cons (.name .norm_ord) .nil)) .nil) ];
    .aug .div (.var .avg_d) (.self .len);
    .ret (.name .avg_d) ]

/-- `Cluster.center_distance`, v0.py:108-120. -/
def center_distance : Func where
  params := [(.x, Option.none), (.norm_ord, some (.int 2))]
  body :=
  [old| .ret (.call .np_linalg_norm (.cons (.bin .sub (.self .center) (.name .x)) (.cons (.name .norm_ord) .nil)) .nil) ]

/-- `Cluster.within_bounding_box`, v0.py:122-136. -/
def within_bounding_box : Func where
  params := [(.x, Option.none)]
  body :=
  [old| .assign (.var .return_val) (.call .np_array_equal (.cons (.call .np_minimum (.cons (.name .x) (.cons (.self .bounding_box) .nil)) .nil) (.cons (.self .bounding_box) .nil)) .nil);
    .ret (.name .return_val) ]

end Cluster

/-- `norm22`, v0.py:150-159. -/
def norm22 : Func where
  params := [(.x, Option.none)]
  body :=
  [old| .ret (.bin .pow (.call .np_linalg_norm (.cons (.name .x) (.cons (.int 2) .nil)) .nil) (.int 2)) ]

/-- `CP_update`, v0.py:162-219. -/
def CP_update : Func where
  params := [(.x, Option.none), (.v_old, Option.none), (.n_old, Option.none), (.g_old, some .none), (.cp_old, some (.int 0)), (.n_new, some .none), (.v_new, some .none), (.p, some (.int 2)), (.q, some (.int 2))]
  body :=
  [old| .ite (.cmp .is_ (.name .g_old) .none)
    [old| .assign (.var .g_old) (.call .np_zeros_like (.cons (.name .x) .nil) .nil) ]
    .nil;
    .ite (.cmp .is_ (.name .n_new) .none)
    [old| .assign (.var .n_new) (.bin .add (.name .n_old) (.int 1)) ]
    .nil;
    .ite (.cmp .is_ (.name .v_new) .none)
    [old| .assign (.var .v_new) (.bin .add (.name .v_old) (.bin .div (.bin .sub (.name .x) (.name .v_old)) (.name .n_new))) ]
    .nil;
    .assign (.var .delta_v) (.bin .sub (.name .v_old) (.name .v_new));
    .assign (.var .z) (.bin .sub (.name .x) (.name .v_new));
    .assign (.var .g_new) (.bin .add (.bin .add (.name .g_old) (.name .z)) (.bin .mul (.name .n_old) (.name .delta_v)));
    .assign (.var .cp_new) (.bin .add (.bin .add (.bin .add (.name .cp_old) (.bin .pow (.call .np_linalg_norm (.cons (.name .z) (.cons (.name .q) .nil)) .nil) (.name .p))) (.bin .mul (.name .n_old) (.bin .pow (.call .np_linalg_norm (.cons (.name .delta_v) (.cons (.name .q) .nil)) .nil) (.name .p)))) (.bin .pow (.call .np_sqrt (.cons (.bin .mul (.int 2) (.call .np_dot (.cons (.name .delta_v) (.cons (.name .g_old) .nil)) .nil)) .nil) .nil) (.name .p)));
    .ret (.seq (.cons (.name .cp_new) (.cons (.name .g_new) (.cons (.name .v_new) (.cons (.name .n_new) .nil))))) ]

/-- `cluster_center_update`, v0.py:222-246. -/
def cluster_center_update : Func where
  params := [(.x, Option.none), (.v_old, Option.none), (.n_old, Option.none)]
  body :=
  [old| .assign (.var .n_new) (.bin .add (.name .n_old) (.int 1));
    .assign (.var .v_new) (.bin .add (.name .v_old) (.bin .div (.bin .sub (.name .x) (.name .v_old)) (.name .n_new)));
    .ret (.seq (.cons (.name .v_new) (.cons (.name .n_new) .nil))) ]

namespace iXB

/-- `iXB.__init__`, v0.py:254-269. -/
def init : Func where
  params := []
  body :=
  [old| .assign (.self .min_v) .inf;
    .assign (.self .min_v_i) (.seq .nil);
    .assign (.self .N) (.int 0);
    .assign (.self .WGSS) (.int 0);
    .assign (.self .WGSS_i) (.seq .nil);
    .assign (.self .output) (.int 0);
    .assign (.self .cluster_centers) (.seq .nil);
    .assign (.self .cluster_sizes) (.seq .nil);
    .assign (.self .g) .none ]

/-- `iXB.update`, v0.py:271-324. -/
def update : Func where
  params := [(.x, Option.none), (.c_i, Option.none)]
  body :=
  [old| .aug .add (.self .N) (.int 1);
    .ite (.cmp .eq (.name .c_i) (.call .py_len (.cons (.self .cluster_sizes) .nil) .nil))
    [old| .append .cluster_centers (.name .x);
      .append .cluster_sizes (.int 1);
      .append .WGSS_i (.int 0);
      .append .min_v_i .inf ]
    [old| .ite (.cmp .gt (.name .c_i) (.call .py_len (.cons (.self .cluster_sizes) .nil) .nil))
      [old| .raise .valueError ]
      [old| .aug .sub (.self .WGSS) (.item (.self .WGSS_i) (.cons (.name .c_i) .nil));
        .unpack [(.item .WGSS_i (.cons (.name .c_i) .nil)), (.self .g), (.item .cluster_centers (.cons (.name .c_i) .nil)), (.item .cluster_sizes (.cons (.name .c_i) .nil))] (.call .CP_update (.cons (.name .x) (.cons (.item (.self .cluster_centers) (.cons (.name .c_i) .nil)) (.cons (.item (.self .cluster_sizes) (.cons (.name .c_i) .nil)) (.cons (.self .g) (.cons (.item (.self .WGSS_i) (.cons (.name .c_i) .nil)) .nil))))) .nil) ] ];
    .aug .add (.self .WGSS) (.item (.self .WGSS_i) (.cons (.name .c_i) .nil));
    .assign (.item .min_v_i (.cons (.name .c_i) .nil)) .inf;
    .loop .j (.call .py_range (.cons (.call .py_len (.cons (.self .cluster_centers) .nil) .nil) .nil) .nil)
    [old| .ite (.cmp .ne (.name .j) (.name .c_i))
      [old| .assign (.item .min_v_i (.cons (.name .c_i) .nil)) (.call .np_minimum (.cons (.item (.self .min_v_i) (.cons (.name .c_i) .nil)) (.cons (.call .norm22 (.cons (.bin .sub (.item (.self .cluster_centers) (.cons (.name .c_i) .nil)) (.item (.self .cluster_centers) (.cons (.name .j) .nil))) .nil) .nil) .nil)) .nil) ]
      .nil ];
    .assign (.self .min_v) (.call .py_min (.cons (.seq (.cons (.self .min_v) (.cons (.item (.self .min_v_i) (.cons (.name .c_i) .nil)) .nil))) .nil) .nil);
    .assign (.self .output) (.bin .div (.bin .div (.self .WGSS) (.self .N)) (.self .min_v));
    .ret (.self .output) ]

end iXB

namespace iPS

/-- `iPS.__init__`, v0.py:332-344. -/
def init : Func where
  params := []
  body :=
  [old| .assign (.self .mean_cluster_center) .none;
    .assign (.self .max_cluster_size) (.int 0);
    .assign (.self .output) (.int 0);
    .assign (.self .PS_i) (.seq .nil);
    .assign (.self .cluster_centers) (.seq .nil);
    .assign (.self .cluster_sizes) (.seq .nil) ]

/-- `iPS.update`, v0.py:346-403. -/
def update : Func where
  params := [(.x, Option.none), (.c_i, Option.none)]
  body :=
  [old| .ite (.cmp .ge (.name .c_i) (.call .py_len (.cons (.self .cluster_centers) .nil) .nil))
    [old| .append .cluster_centers (.name .x);
      .append .cluster_sizes (.int 1);
      .append .PS_i (.int 0) ]
    [old| .unpack [(.item .cluster_centers (.cons (.name .c_i) .nil)), (.item .cluster_sizes (.cons (.name .c_i) .nil))] (.call .cluster_center_update (.cons (.name .x) (.cons (.item (.self .cluster_centers) (.cons (.name .c_i) .nil)) (.cons (.item (.self .cluster_sizes) (.cons (.name .c_i) .nil)) .nil))) .nil) ];
    .assign (.self .max_cluster_size) (.call .np_maximum (.cons (.self .max_cluster_size) (.cons (.item (.self .cluster_sizes) (.cons (.name .c_i) .nil)) .nil)) .nil);
    .assign (.var .b_) (.compIf (.call .norm22 (.cons (.bin .sub (.item (.self .cluster_centers) (.cons (.name .c_i) .nil)) (.item (.self .cluster_centers) (.cons (.name .c_j) .nil))) .nil) .nil) .c_j (.call .py_range (.cons (.call .py_len (.cons (.self .cluster_centers) .nil) .nil) .nil) .nil) (.cmp .ne (.name .c_j) (.name .c_i)));
    .ite (.name .b_)
    [old| .assign (.var .b) (.call .np_min (.cons (.name .b_) .nil) .nil);
      .assign (.self .mean_cluster_center) (.bin .div (.call .np_sum (.cons (.self .cluster_centers) .nil) .nil) (.call .py_len (.cons (.self .cluster_centers) .nil) .nil));
      .assign (.var .Bt) (.bin .div (.call .np_sum_generator (.cons (.comp (.call .norm22 (.cons (.bin .sub (.name .cc) (.self .mean_cluster_center)) .nil) .nil) .cc (.self .cluster_centers)) .nil) .nil) (.call .py_len (.cons (.self .cluster_centers) .nil) .nil));
      .assign (.item .PS_i (.cons (.name .c_i) .nil)) (.bin .sub (.bin .div (.item (.self .cluster_sizes) (.cons (.name .c_i) .nil)) (.self .max_cluster_size)) (.call .np_exp (.cons (.bin .div (.neg (.name .b)) (.name .Bt)) .nil) .nil)) ]
    [old| .assign (.item .PS_i (.cons (.name .c_i) .nil)) (.int 0);
      .assign (.self .output) (.call .np_sum (.cons (.self .PS_i) .nil) .nil) ];
    .ret (.self .output) ]

end iPS

namespace iCH

/-- `iCH.__init__`, v0.py:411-428. -/
def init : Func where
  params := []
  body :=
  [old| .assign (.self .clusters) (.call .Clusters .nil .nil);
    .assign (.self .WGSS) (.int 0);
    .assign (.self .WGSS_i) (.seq .nil);
    .assign (.self .BGSS) (.int 0);
    .assign (.self .BGSS_i) (.seq .nil);
    .assign (.self .output) (.int 0);
    .assign (.self .data_center) (.int 0);
    .assign (.self .N) (.int 0);
    .assign (.self .cluster_centers) (.seq .nil);
    .assign (.self .cluster_sizes) (.seq .nil);
    .assign (.self .g) .none ]

/-- `iCH.update`, v0.py:430-488. -/
def update : Func where
  params := [(.x, Option.none), (.c_i, Option.none)]
  body :=
  [old| .aug .add (.self .N) (.int 1);
    .assign (.self .data_center) (.bin .div (.bin .add (.bin .mul (.bin .sub (.self .N) (.int 1)) (.self .data_center)) (.name .x)) (.self .N));
    .ite (.cmp .eq (.name .c_i) (.call .py_len (.cons (.self .clusters) .nil) .nil))
    [old| .append .cluster_centers (.name .x);
      .append .cluster_sizes (.int 1);
      .append .WGSS_i (.int 0);
      .append .BGSS_i (.int 0) ]
    [old| .ite (.cmp .gt (.name .c_i) (.call .py_len (.cons (.self .cluster_sizes) .nil) .nil))
      [old| .raise .valueError ]
      [old| .aug .sub (.self .WGSS) (.item (.self .WGSS_i) (.cons (.name .c_i) .nil));
        .unpack [(.item .WGSS_i (.cons (.name .c_i) .nil)), (.self .g), (.item .cluster_centers (.cons (.name .c_i) .nil)), (.item .cluster_sizes (.cons (.name .c_i) .nil))] (.call .CP_update (.cons (.name .x) (.cons (.item (.self .cluster_centers) (.cons (.name .c_i) .nil)) (.cons (.item (.self .cluster_sizes) (.cons (.name .c_i) .nil)) (.cons (.self .g) (.cons (.item (.self .WGSS_i) (.cons (.name .c_i) .nil)) .nil))))) .nil);
        .aug .add (.self .WGSS) (.item (.self .WGSS_i) (.cons (.name .c_i) .nil)) ] ];
    .aug .sub (.self .BGSS) (.item (.self .BGSS_i) (.cons (.name .c_i) .nil));
    .assign (.item .BGSS_i (.cons (.name .c_i) .nil)) (.bin .mul (.item (.self .cluster_sizes) (.cons (.name .c_i) .nil)) (.call .norm22 (.cons (.bin .sub (.item (.self .cluster_centers) (.cons (.name .c_i) .nil)) (.self .data_center)) .nil) .nil));
    .aug .add (.self .BGSS) (.item (.self .BGSS_i) (.cons (.name .c_i) .nil));
    .ite (.and (.cmp .gt (.call .py_len (.cons (.self .cluster_centers) .nil) .nil) (.int 1)) (.cmp .gt (.bin .sub (.self .N) (.call .py_len (.cons (.self .cluster_centers) .nil) .nil)) (.int 0)))
    [old| .assign (.self .output) (.bin .div (.bin .div (.self .BGSS) (.bin .sub (.call .py_len (.cons (.self .cluster_centers) .nil) .nil) (.int 1))) (.bin .div (.self .WGSS) (.bin .sub (.self .N) (.call .py_len (.cons (.self .cluster_centers) .nil) .nil)))) ]
    [old| .assign (.self .output) (.int 0) ];
    .ret (.self .output) ]

end iCH

namespace iGD

/-- `iGD.__init__`, v0.py:496-516. -/
def init : Func where
  params := [(.t, some (.int 43))]
  body :=
  [old| .assert (.or (.cmp .eq (.name .t) (.int 43)) (.cmp .eq (.name .t) (.int 53)));
    .assign (.self .t) (.name .t);
    .assign (.self .d) (.bin .mul (.call .np_ones (.cons (.seq (.cons (.int 0) (.cons (.int 0) .nil))) .nil) .nil) .inf);
    .assign (.self .D) (.seq .nil);
    .assign (.self .output) (.int 0);
    .assign (.self .cluster_centers) (.seq .nil);
    .assign (.self .cluster_sizes) (.seq .nil);
    .assign (.self .g) .none;
    .assign (.self .CP) (.seq .nil) ]

/-- `iGD.update`, v0.py:518-584. -/
def update : Func where
  params := [(.x, Option.none), (.c_i, Option.none)]
  body :=
  [old| .ite (.cmp .eq (.name .c_i) (.call .py_len (.cons (.self .cluster_centers) .nil) .nil))
    [old| .append .cluster_centers (.name .x);
      .append .cluster_sizes (.int 1);
      .append .CP (.int 0);
      .assign (.self .d) (.call .np_pad_mode_constant_values (.cons (.self .d) (.cons (.seq (.cons (.seq (.cons (.int 0) (.cons (.int 1) .nil))) (.cons (.seq (.cons (.int 0) (.cons (.int 1) .nil))) .nil))) (.cons .constant (.cons .inf .nil)))) .nil);
      .append .D (.neg .inf) ]
    [old| .ite (.cmp .gt (.name .c_i) (.call .py_len (.cons (.self .cluster_sizes) .nil) .nil))
      [old| .raise .valueError ]
      [old| .unpack [(.item .CP (.cons (.name .c_i) .nil)), (.self .g), (.item .cluster_centers (.cons (.name .c_i) .nil)), (.item .cluster_sizes (.cons (.name .c_i) .nil))] (.call .CP_update (.cons (.name .x) (.cons (.item (.self .cluster_centers) (.cons (.name .c_i) .nil)) (.cons (.item (.self .cluster_sizes) (.cons (.name .c_i) .nil)) (.cons (.self .g) (.cons (.item (.self .CP) (.cons (.name .c_i) .nil)) .nil))))) (.cons .p (.int 1) .nil));
        .ite (.cmp .eq (.self .t) (.int 43))
        [old| .loop .j (.call .py_range (.cons (.call .py_len (.cons (.self .cluster_centers) .nil) .nil) .nil) .nil)
          [old| .ite (.cmp .ne (.name .c_i) (.name .j))
            [old| .assign (.item .d (.cons (.name .c_i) (.cons (.name .j) .nil))) (.call .norm22 (.cons (.bin .sub (.item (.self .cluster_centers) (.cons (.name .c_i) .nil)) (.item (.self .cluster_centers) (.cons (.name .j) .nil))) .nil) .nil);
              .assign (.item .d (.cons (.name .j) (.cons (.name .c_i) .nil))) (.item (.self .d) (.cons (.name .c_i) (.cons (.name .j) .nil))) ]
            .nil ] ]
        [old| .loop .j (.call .py_range (.cons (.call .py_len (.cons (.self .cluster_centers) .nil) .nil) .nil) .nil)
          [old| .ite (.cmp .ne (.name .c_i) (.name .j))
            [old| .assign (.item .d (.cons (.name .c_i) (.cons (.name .j) .nil))) (.bin .div (.bin .add (.item (.self .CP) (.cons (.name .c_i) .nil)) (.item (.self .CP) (.cons (.name .j) .nil))) (.bin .add (.item (.self .cluster_sizes) (.cons (.name .c_i) .nil)) (.item (.self .cluster_sizes) (.cons (.name .j) .nil))));
              .assign (.item .d (.cons (.name .j) (.cons (.name .c_i) .nil))) (.item (.self .d) (.cons (.name .c_i) (.cons (.name .j) .nil))) ]
            .nil ] ];
        .assign (.item .D (.cons (.name .c_i) .nil)) (.bin .div (.bin .mul (.int 2) (.item (.self .CP) (.cons (.name .c_i) .nil))) (.attr (.item (.self .cluster_sizes) (.cons (.name .c_i) .nil)) .len));
        .assign (.self .output) (.bin .div (.call .np_min (.cons (.self .d) .nil) .nil) (.call .np_max (.cons (.self .D) .nil) .nil)) ] ];
    .ret (.self .output) ]

end iGD

namespace iGD43

/-- `iGD43.__init__`, v0.py:592-593. -/
def init : Func where
  params := []
  body :=
  [old| .eval (.call .super_init (.cons (.int 43) .nil) .nil) ]

end iGD43

namespace iGD53

/-- `iGD53.__init__`, v0.py:601-602. -/
def init : Func where
  params := []
  body :=
  [old| .eval (.call .super_init (.cons (.int 53) .nil) .nil) ]

end iGD53

namespace iSIL

/-- `iSIL.__init__`, v0.py:610-625. -/
def init : Func where
  params := []
  body :=
  [old| .assign (.self .sc) (.seq .nil);
    .assign (.self .b) (.bin .mul (.call .np_ones (.cons (.seq (.cons (.int 0) (.cons (.int 0) .nil))) .nil) .nil) .inf);
    .assign (.self .output) (.int 0);
    .assign (.self .N) (.int 0);
    .assign (.self .cluster_centers) (.seq .nil);
    .assign (.self .cluster_sizes) (.seq .nil);
    .assign (.self .CP) (.seq .nil);
    .assign (.self .g) (.seq .nil);
    .assign (.self .sij) (.call .np_zeros (.cons (.seq (.cons (.int 0) (.cons (.int 0) .nil))) .nil) .nil) ]

/-- `iSIL.cp_update`, v0.py:627-640. -/
def cp_update : Func where
  params := [(.x, Option.none), (.i, Option.none)]
  body :=
  [old| .aug .add (.item .CP (.cons (.name .i) .nil)) (.bin .pow (.call .np_linalg_norm (.cons (.name .x) .nil) .nil) (.int 2));
    .aug .add (.item .g (.cons (.name .i) .nil)) (.name .x) ]

/-- `iSIL.s_ij_new`, v0.py:642-724. -/
def s_ij_new : Func where
  params := [(.x, Option.none), (.i, Option.none), (.j, Option.none), (.J, Option.none), (.nj, Option.none), (.nj_old, Option.none), (.cpj_old, Option.none), (.vj, Option.none), (.vi, Option.none), (.gj_old, Option.none), (.sij_old, Option.none)]
  body :=
  [old| .assign (.var .zi) (.bin .sub (.name .x) (.name .vi));
    .assign (.var .zj) (.bin .sub (.name .x) (.name .vj));
    .ite (.cmp .ne (.name .i) (.name .J))
    [old| .ite (.cmp .eq (.name .j) (.name .J))
      [old| .assign (.var .local_return) (.bin .mul (.bin .div (.int 1) (.name .nj)) (.bin .sub (.bin .add (.bin .add (.name .cpj_old) (.bin .pow (.call .np_linalg_norm (.cons (.name .zi) .nil) .nil) (.int 2))) (.bin .mul (.name .nj) (.bin .pow (.call .np_linalg_norm (.cons (.name .vi) .nil) .nil) (.int 2)))) (.bin .mul (.int 2) (.call .np_dot (.cons (.name .vi) (.cons (.name .gj_old) .nil)) .nil))));
        .ret (.name .local_return) ]
      [old| .ret (.name .sij_old) ] ]
    [old| .ite (.cmp .eq (.name .j) (.name .J))
      [old| .assign (.var .local_return) (.bin .mul (.bin .div (.int 1) (.name .nj)) (.bin .sub (.bin .add (.bin .add (.name .cpj_old) (.bin .pow (.call .np_linalg_norm (.cons (.name .zj) .nil) .nil) (.int 2))) (.bin .mul (.name .nj_old) (.bin .pow (.call .np_linalg_norm (.cons (.name .vj) .nil) .nil) (.int 2)))) (.bin .mul (.int 2) (.call .np_dot (.cons (.name .vj) (.cons (.name .gj_old) .nil)) .nil))));
        .ret (.name .local_return) ]
      [old| .assign (.var .local_return) (.bin .mul (.bin .div (.int 1) (.name .nj)) (.bin .sub (.bin .add (.name .cpj_old) (.bin .mul (.name .nj) (.bin .pow (.call .np_linalg_norm (.cons (.name .vi) .nil) .nil) (.int 2)))) (.bin .mul (.int 2) (.call .np_dot (.cons (.name .vi) (.cons (.name .gj_old) .nil)) .nil))));
        .ret (.name .local_return) ] ] ]

/-- `iSIL.s_ij_new_cluster`, v0.py:726-792. -/
def s_ij_new_cluster : Func where
  params := [(.x, Option.none), (.i, Option.none), (.j, Option.none), (.J, Option.none), (.nj_old, Option.none), (.cpj_old, Option.none), (.vi_new, Option.none), (.vi_old, Option.none), (.gj_old, Option.none), (.sij_old, Option.none)]
  body :=
  [old| .ite (.cmp .ne (.name .i) (.name .J))
    [old| .ite (.cmp .eq (.name .j) (.name .J))
      [old| .assign (.var .local_return) (.bin .sub (.bin .add (.bin .pow (.call .np_linalg_norm (.cons (.name .x) .nil) .nil) (.int 2)) (.bin .pow (.call .np_linalg_norm (.cons (.name .vi_old) .nil) .nil) (.int 2))) (.bin .mul (.int 2) (.call .np_dot (.cons (.name .vi_old) (.cons (.name .x) .nil)) .nil)));
        .ret (.name .local_return) ]
      [old| .ret (.name .sij_old) ] ]
    [old| .ite (.cmp .eq (.name .j) (.name .J))
      [old| .ret (.int 0) ]
      [old| .assign (.var .local_return) (.bin .mul (.bin .div (.int 1) (.name .nj_old)) (.bin .sub (.bin .add (.name .cpj_old) (.bin .mul (.name .nj_old) (.bin .pow (.call .np_linalg_norm (.cons (.name .vi_new) .nil) .nil) (.int 2)))) (.bin .mul (.int 2) (.call .np_dot (.cons (.name .vi_new) (.cons (.name .gj_old) .nil)) .nil))));
        .ret (.name .local_return) ] ] ]

/-- `iSIL.sci`, v0.py:794-829. -/
def sci : Func where
  params := [(.i, Option.none), (.J, Option.none)]
  body :=
  [old| .assign (.var .A) (.bin .sub (.call .py_min (.cons (.compIf (.item (.self .sij) (.cons (.name .i) (.cons (.name .ij) .nil))) .ij (.call .py_range (.cons (.call .py_len (.cons (.self .cluster_centers) .nil) .nil) .nil) .nil) (.cmp .ne (.name .ij) (.name .J))) .nil) .nil) (.item (.self .sij) (.cons (.name .i) (.cons (.name .J) .nil))));
    .assign (.var .B) (.call .py_max (.cons (.item (.self .sij) (.cons (.name .i) (.cons (.name .J) .nil))) (.cons (.call .py_max (.cons (.compIf (.item (.self .sij) (.cons (.name .i) (.cons (.name .ij) .nil))) .ij (.call .py_range (.cons (.call .py_len (.cons (.self .cluster_centers) .nil) .nil) .nil) .nil) (.cmp .ne (.name .ij) (.name .J))) .nil) .nil) .nil)) .nil);
    .ret (.bin .div (.name .A) (.name .B)) ]

/-- `iSIL.update`, v0.py:831-902. -/
def update : Func where
  params := [(.x, Option.none), (.c_i, Option.none)]
  body :=
  [old| .ite (.cmp .eq (.name .c_i) (.call .py_len (.cons (.self .cluster_sizes) .nil) .nil))
    [old| .append .cluster_centers (.name .x);
      .append .cluster_sizes (.int 1);
      .append .sc (.int 0);
      .assign (.self .b) (.call .np_pad_mode_constant_values (.cons (.self .b) (.cons (.seq (.cons (.seq (.cons (.int 0) (.cons (.int 1) .nil))) (.cons (.seq (.cons (.int 0) (.cons (.int 1) .nil))) .nil))) (.cons .constant (.cons .inf .nil)))) .nil);
      .assign (.self .sij) (.call .np_pad_mode_constant_values (.cons (.self .b) (.cons (.seq (.cons (.seq (.cons (.int 0) (.cons (.int 1) .nil))) (.cons (.seq (.cons (.int 0) (.cons (.int 1) .nil))) .nil))) (.cons .constant (.cons (.int 0) .nil)))) .nil);
      .append .CP (.bin .pow (.call .np_linalg_norm (.cons (.name .x) .nil) .nil) (.int 2));
      .append .g (.name .x) ]
    [old| .ite (.cmp .gt (.name .c_i) (.call .py_len (.cons (.self .cluster_sizes) .nil) .nil))
      [old| .raise .valueError ]
      .nil ];
    .aug .add (.self .N) (.int 1);
    .unpack [(.item .cluster_centers (.cons (.name .c_i) .nil)), (.item .cluster_sizes (.cons (.name .c_i) .nil))] (.call .cluster_center_update (.cons (.name .x) (.cons (.item (.self .cluster_centers) (.cons (.name .c_i) .nil)) (.cons (.item (.self .cluster_sizes) (.cons (.name .c_i) .nil)) .nil))) .nil);
    .loop .i (.call .py_range (.cons (.call .py_len (.cons (.self .cluster_sizes) .nil) .nil) .nil) .nil)
    [old| .loop .j (.call .py_range (.cons (.call .py_len (.cons (.self .cluster_sizes) .nil) .nil) .nil) .nil)
      [old| .assign (.item .sij (.cons (.name .i) (.cons (.name .j) .nil))) (.call .self_s_ij_new (.cons (.name .x) (.cons (.name .i) (.cons (.name .j) (.cons (.name .c_i) (.cons (.item (.self .cluster_sizes) (.cons (.name .j) .nil)) (.cons (.bin .sub (.item (.self .cluster_sizes) (.cons (.name .j) .nil)) (.int 1)) (.cons (.item (.self .CP) (.cons (.name .j) .nil)) (.cons (.item (.self .cluster_centers) (.cons (.name .j) .nil)) (.cons (.item (.self .cluster_centers) (.cons (.name .i) .nil)) (.cons (.item (.self .g) (.cons (.name .j) .nil)) (.cons (.item (.self .sij) (.cons (.name .i) (.cons (.name .j) .nil))) .nil))))))))))) .nil) ] ];
    .eval (.call .self_cp_update (.cons (.name .x) (.cons (.name .c_i) .nil)) .nil);
    .assign (.self .output) (.bin .mul (.bin .div (.int 1) (.call .py_len (.cons (.self .cluster_centers) .nil) .nil)) (.call .py_sum (.cons (.comp (.call .self_sci (.cons (.name .i) (.cons (.name .c_i) .nil)) .nil) .i (.call .py_range (.cons (.call .py_len (.cons (.self .cluster_centers) .nil) .nil) .nil) .nil)) .nil) .nil));
    .ret (.self .output) ]

end iSIL

namespace iDB

/-- `iDB.__init__`, v0.py:910-926. -/
def init : Func where
  params := []
  body :=
  [old| .assign (.self .R) (.seq .nil);
    .assign (.self .S) (.seq .nil);
    .assign (.self .M) (.call .np_zeros (.cons (.seq (.cons (.int 0) (.cons (.int 0) .nil))) .nil) .nil);
    .assign (.self .p) (.int 1);
    .assign (.self .q) (.int 1);
    .assign (.self .output) (.int 0);
    .assign (.self .N) (.int 0);
    .assign (.self .cluster_centers) (.seq .nil);
    .assign (.self .cluster_sizes) (.seq .nil);
    .assign (.self .g) .none;
    .assign (.self .CP) (.seq .nil) ]

/-- `iDB.update`, v0.py:928-1000. -/
def update : Func where
  params := [(.x, Option.none), (.c_i, Option.none)]
  body :=
  [old| .aug .add (.self .N) (.int 1);
    .ite (.cmp .eq (.name .c_i) (.call .py_len (.cons (.self .cluster_centers) .nil) .nil))
    [old| .append .cluster_centers (.name .x);
      .append .cluster_sizes (.int 1);
      .append .R (.int 0);
      .append .S (.int 0);
      .assign (.self .M) (.call .np_pad_mode_constant_values (.cons (.self .M) (.cons (.seq (.cons (.seq (.cons (.int 0) (.cons (.int 1) .nil))) (.cons (.seq (.cons (.int 0) (.cons (.int 1) .nil))) .nil))) (.cons .constant (.cons (.int 0) .nil)))) .nil) ]
    [old| .ite (.cmp .gt (.name .c_i) (.call .py_len (.cons (.self .cluster_sizes) .nil) .nil))
      [old| .raise .valueError ]
      [old| .unpack [(.item .CP (.cons (.name .c_i) .nil)), (.self .g), (.item .cluster_centers (.cons (.name .c_i) .nil)), (.item .cluster_sizes (.cons (.name .c_i) .nil))] (.call .CP_update (.cons (.name .x) (.cons (.item (.self .cluster_centers) (.cons (.name .c_i) .nil)) (.cons (.item (.self .cluster_sizes) (.cons (.name .c_i) .nil)) (.cons (.self .g) (.cons (.item (.self .CP) (.cons (.name .c_i) .nil)) .nil))))) (.cons .p (.self .p) (.cons .q (.self .q) .nil)));
        .assign (.item .S (.cons (.name .c_i) .nil)) (.bin .pow (.bin .mul (.bin .div (.int 1) (.item (.self .cluster_sizes) (.cons (.name .c_i) .nil))) (.item (.self .CP) (.cons (.name .c_i) .nil))) (.bin .div (.int 1) (.self .q)));
        .assign (.item .R (.cons (.name .c_i) .nil)) (.int 0);
        .loop .j (.call .py_range (.cons (.call .py_len (.cons (.self .cluster_sizes) .nil) .nil) .nil) .nil)
        [old| .ite (.cmp .ne (.name .j) (.name .c_i))
          [old| .assign (.item .M (.cons (.name .c_i) (.cons (.name .j) .nil))) (.int 0);
            .loop .t (.call .py_range (.cons (.call .py_len (.cons (.name .x) .nil) .nil) .nil) .nil)
            [old| .ite (.cmp .gt (.item (.self .cluster_sizes) (.cons (.name .j) .nil)) (.int 0))
              [old| .assign (.item .M (.cons (.name .c_i) (.cons (.name .j) .nil))) (.bin .pow (.call .py_abs (.cons (.bin .sub (.item (.item (.self .cluster_centers) (.cons (.name .c_i) .nil)) (.cons (.name .t) .nil)) (.item (.item (.self .cluster_centers) (.cons (.name .j) .nil)) (.cons (.name .t) .nil))) .nil) .nil) (.self .p)) ]
              .nil ];
            .assign (.item .M (.cons (.name .c_i) (.cons (.name .j) .nil))) (.bin .pow (.item (.self .M) (.cons (.name .c_i) (.cons (.name .j) .nil))) (.bin .div (.float 1 1) (.self .p)));
            .assign (.item .M (.cons (.name .j) (.cons (.name .c_i) .nil))) (.item (.self .M) (.cons (.name .c_i) (.cons (.name .j) .nil)));
            .ite (.cmp .gt (.item (.self .cluster_sizes) (.cons (.name .j) .nil)) (.int 0))
            [old| .assign (.item .R (.cons (.name .c_i) .nil)) (.call .py_max (.cons (.item (.self .R) (.cons (.name .c_i) .nil)) (.cons (.bin .div (.bin .add (.item (.self .S) (.cons (.name .c_i) .nil)) (.item (.self .S) (.cons (.name .j) .nil))) (.item (.self .M) (.cons (.name .c_i) (.cons (.name .j) .nil)))) .nil)) .nil) ]
            .nil ]
          .nil ];
        .assign (.self .output) (.bin .div (.call .np_sum (.cons (.self .R) .nil) .nil) (.call .py_sum (.cons (.comp (.cmp .gt (.name .clen) (.int 0)) .clen (.self .cluster_sizes)) .nil) .nil)) ] ];
    .ret (.self .output) ]

end iDB

end Verif.Old
