import Verif.Model.Values

/-!
# glmtools/io/glm.py: opening of a file with all corrections

`openDataset` and `openWithTimes` work on rows, `openValues` on columns.  Here they are put together.
-/

namespace Verif.Model

open Verif.Py

/-- The attribute `units` and the `encoding` of a variable. -/
structure VarAttrs where
  units : Option String
  addOffset : Option Rat
  scaleFactor : Option Rat
  fillValue : Option Rat
  deriving DecidableEq, Repr

/-- What a file says besides its rows: attributes of the variables, the rows whose area is missing (NaN after reading, because
the count is `_FillValue`), by id, and what the correction of times depends on. -/
structure FileAttrs where
  flashEnergy : VarAttrs
  groupEnergy : VarAttrs
  eventEnergy : VarAttrs
  flashArea : VarAttrs
  groupArea : VarAttrs
  noFlashArea : Int → Bool
  noGroupArea : Int → Bool
  productMin : Int
  productMax : Int
  hasFrameTime : Bool

/-- A variable of the dataset with its values. -/
def VarAttrs.column (a : VarAttrs) (values : List (Option Rat)) : FloatVar :=
  ⟨values, a.units, a.addOffset, a.scaleFactor, a.fillValue⟩

/-- The variables that `openValues` corrects, from the rows of the dataset.  Energies are taken not to be missing. -/
def valueVars (a : FileAttrs) (d : GFile) : ValueVars where
  flashEnergy := a.flashEnergy.column (d.flashes.map fun r => some r.val.energy)
  groupEnergy := a.groupEnergy.column (d.groups.map fun r => some r.val.energy)
  eventEnergy := a.eventEnergy.column (d.events.map fun r => some r.val.energy)
  flashArea := a.flashArea.column (d.flashes.map fun r => if a.noFlashArea r.id then none else some r.val.area)
  groupArea := a.groupArea.column (d.groups.map fun r => if a.noGroupArea r.id then none else some r.val.area)

/-- Assignment of an energy. -/
def setEnergy (r : Row GVal) (v : Option Rat) : Row GVal := { r with val := { r.val with energy := v.getD 0 } }
/-- Assignment of an area. -/
def setArea (r : Row GVal) (v : Option Rat) : Row GVal := { r with val := { r.val with area := v.getD 0 } }

/-- The rows of the dataset with the corrected variables. -/
def withValues (v : ValueVars) (d : GFile) : GFile where
  flashes := List.zipWith setArea (List.zipWith setEnergy d.flashes v.flashEnergy.values) v.flashArea.values
  groups := List.zipWith setArea (List.zipWith setEnergy d.groups v.groupEnergy.values) v.groupArea.values
  events := List.zipWith setEnergy d.events v.eventEnergy.values

/-- `GLMDataset(filename, ellipse_rev=...)` with the other arguments left at their defaults, glm.py:153-252, as make_grids.py:896
calls it. -/
def openFull (order : List Int → List Int) (nav : Rat → Rat → Rat × Rat) (a : FileAttrs) (file : GFile) : Except Err GFile := do
  let d ← openWithTimes order nav true true a.productMin a.productMax a.hasFrameTime file
  match openValues true true (valueVars a d) with
  | (v, .ok ()) => pure (withValues v d)
  | (_, .error e) => .error e

end Verif.Model
