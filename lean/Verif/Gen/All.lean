import Verif.Model.All
import Verif.Gen.CH
import Verif.Gen.WB
import Verif.Gen.XB
import Verif.Gen.DB
import Verif.Gen.GD43
import Verif.Gen.GD53
import Verif.Gen.PS
import Verif.Gen.RCIP
import Verif.Gen.CSIL

/-! # The nine modules over an arbitrary arithmetic -/

namespace Verif.Gen

/-- The class of that name, computing with floats of type `F`. -/
def mod (F : Type) [Arith F] : Index → Module F
  | .CH => CHmod
  | .WB => WBmod
  | .XB => XBmod
  | .DB => DBmod
  | .GD43 => GD43mod
  | .GD53 => GD53mod
  | .PS => PSmod
  | .rCIP => RCIPmod
  | .cSIL => CSILmod

end Verif.Gen
