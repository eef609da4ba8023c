import Verif.Model.Opening

/-!
# glmtools/io/glm.py: the options of `GLMDataset`
-/

namespace Verif.Model

open Verif.Py

/-- The options of `GLMDataset.__init__` with their defaults, glm.py:153-155. -/
structure OpenOptions where
  calculateParentChild : Bool := true
  checkAreaUnits : Bool := true
  changeEnergyUnits : Bool := true
  fixTimes : Bool := true
  checkTree : Bool := true

/-- The correction of times, if it is wanted and needed, glm.py:241-242 and 436-467. -/
def timesStep (o : OpenOptions) (a : FileAttrs) (file d : GFile) : Except Err GFile :=
  if o.fixTimes && needsTimeFix a.productMin a.productMax a.hasFrameTime then correctTimes file d else pure d

/-- `GLMDataset(filename, **options)`, glm.py:153-252: the dataset as rows, and the columns of energies and areas that take the
place of those in the rows. -/
def openOptions (order : List Int → List Int) (nav : Rat → Rat → Rat × Rat) (o : OpenOptions) (a : FileAttrs) (file : GFile) :
    Except Err (GFile × ValueVars) := do
  let d ← openDataset order nav o.checkTree o.calculateParentChild file
  let d ← timesStep o a file d
  match openValues o.checkAreaUnits o.changeEnergyUnits (valueVars a d) with
  | (v, .ok ()) => pure (d, v)
  | (_, .error e) => .error e

end Verif.Model
