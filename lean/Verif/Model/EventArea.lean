import Verif.Py.Basic
import Mathlib.Data.Rat.Defs

/-!
# `event_areas` of glmtools/io/glm.py

Nothing in the repository calls it.
-/

namespace Verif.Model

/-- A group as `event_areas` reads it. -/
structure AreaGroup where
  id : Int
  area : Rat
  childEventCount : Nat
  deriving DecidableEq, Repr

/-- `event_areas(flash_data)`, glm.py:141-150: the local `event_area`, and the result of the call.  The function ends
without a return statement, so the result is None. -/
def eventAreas (groups : List AreaGroup) : List Rat × Option (List Rat) :=
  (groups.map fun g => (g.childEventCount : Rat) / g.area, none)

end Verif.Model
