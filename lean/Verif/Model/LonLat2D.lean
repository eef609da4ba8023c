import Verif.Py.Basic

/-!
# glmtools/io/imagery.py: `xy_to_2D_lonlat`
-/

namespace Verif.Model

open Verif.Py

/-- What the module `imagery` has at its top level under the names `nx` and `ny`: nothing, unless someone puts it there. -/
structure ImageryGlobals where
  nx : Option Nat := none
  ny : Option Nat := none

/-- `assert n == name` for a name that is looked up in the module. -/
def assertGlobal (asserts : Bool) (name : Option Nat) (n : Nat) : Except Err Unit :=
  if asserts then
    match name with
    | none => .error .nameError
    | some k => if n = k then .ok () else .error .assertionError
  else .ok ()

/-- `(a.T for a in np.meshgrid(x_coord, y_coord))`: one row for each x, one column for each y. -/
def meshRows (xs ys : List Rat) : List (List (Rat × Rat)) := xs.map fun x => ys.map fun y => (x, y)

/-- `xy_to_2D_lonlat(gridder, x_coord, y_coord)`, imagery.py:402-418.  `asserts` is false under `python -O`, `convert` stands for
`geoProj.fromECEF(*mapProj.toECEF(x, y, 0))` at one point.  The longitudes and latitudes are computed and dropped: there is no
return statement, so the result is None. -/
def xyTo2DLonLat (asserts : Bool) (globals : ImageryGlobals) (convert : Rat × Rat → Rat × Rat) (xs ys : List Rat) :
    Except Err (Option (List (List (Rat × Rat)))) := do
  let rows := meshRows xs ys
  assertGlobal asserts globals.nx xs.length
  assertGlobal asserts globals.ny ys.length
  let _lonlats := rows.map fun r => r.map convert
  pure none

end Verif.Model
