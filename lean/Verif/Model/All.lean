import Verif.Model.CH
import Verif.Model.WB
import Verif.Model.XB
import Verif.Model.DB
import Verif.Model.GD43
import Verif.Model.GD53
import Verif.Model.PS
import Verif.Model.RCIP
import Verif.Model.CSIL

/-! # The nine modules exported by `src/cvi/modules/__init__.py` -/

namespace Verif

/-- The names of the nine CVI classes, modules/__init__.py:16-24 and `MODULES` in cvi/__init__.py:41-51. -/
inductive Index where
  | CH | WB | XB | DB | GD43 | GD53 | PS | rCIP | cSIL
  deriving DecidableEq, Repr

/-- The class of that name. -/
noncomputable def Index.mod : Index → Module
  | .CH => CHmod
  | .WB => WBmod
  | .XB => XBmod
  | .DB => DBmod
  | .GD43 => GD43mod
  | .GD53 => GD53mod
  | .PS => PSmod
  | .rCIP => RCIPmod
  | .cSIL => CSILmod

end Verif
