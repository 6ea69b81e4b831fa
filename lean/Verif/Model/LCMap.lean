import Verif.Model.LCOpen
import Verif.Model.LCHandler

/-!
# Model of the metadata of opened lightcones (`simim/lightcone/lchandler.py:72-97`)
-/

namespace Verif.LC

variable {K : Type}

/-- The attribute `'shape'`, which is the mode of the `LCMaker`, `lcmaker.py:630`. -/
def shapeOf : Mode → LCH.LCShape
  | .circle => .circle
  | .box => .box

/-- The metadata `LCMaker` writes (`lcmaker.py:626-631`), as `LCHandler.__init__` reads them
(`lchandler.py:84-97`); `h` is `'cosmo_h'`, `inH` the default units of the handler.
Simplification: only the attributes used by `volume`, `extent` and `grid`. -/
def coneMeta (st : Settings K) (h : K) (inH : Bool) : LCH.Meta K where
  shape := shapeOf st.mode
  zmin := st.zlo
  zmax := st.zhi
  angle := some st.angle
  aspect := some st.aspect
  h := h
  inH := inH

end Verif.LC
